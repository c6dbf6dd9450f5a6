import Verif.Props.Factory
import Verif.Props.Isomers
import Verif.Model.TextFields
/-! The kind of datasets for combinations of reactions that were read from a text. -/
namespace X4

theorem reacts_ne_nil (f : FactorText) : f.reacts ≠ [] := by
  induction f using FactorText.rec (motive_2 := fun _ => True) with
  | _ => simp_all [FactorText.reacts]

theorem quantTexts_str (q : List Str) : quantTexts (q.map Tok.str) = q := by
  unfold quantTexts
  rw [List.map_map]
  exact List.map_id _

/-- C35: a combination of reactions is treated as a quantity exactly if all its reactions have this quantity — also those which a reaction with
several isomers stands for; otherwise the dataset cannot be made (and the exception is that of `str` if the combination cannot be printed). -/
theorem C35_combination (D : RxDicts) (f : FactorText) (rd : ReactText → Datum) (single : ReactText → List Reaction)
    (hrx : ∀ x ∈ f.reacts, (∃ R, rd x = .rx R ∧ single x = [R]) ∨
      ∃ n m ms rr, rd x = .iso ((unfoldIsomers x n m ms).data rr) ∧ single x = (m :: ms).map (fun k => rr (x.withIsomer n k)))
    (qs : Reaction → List Str) (hqs : ∀ x ∈ f.reacts, ∀ R ∈ single x, R.quantity = (qs R).map Tok.str) :
    (∀ q, effectiveQuant (x4RxOps D) (.comb (f.dataOf rd)) = .ok q ↔ ∀ x ∈ f.reacts, ∀ R ∈ single x, qs R = q) ∧
    ((∀ q, ∃ x ∈ f.reacts, ∃ R ∈ single x, qs R ≠ q) →
      (∀ t, (Measurement.comb (f.dataOf rd)).str D = .ok t → effectiveQuant (x4RxOps D) (.comb (f.dataOf rd)) = .error .notImplementedError) ∧
      ∀ e, (Measurement.comb (f.dataOf rd)).str D = .error e → effectiveQuant (x4RxOps D) (.comb (f.dataOf rd)) = .error e) := by
  have hm : (x4RxOps D).members (.comb (f.dataOf rd)) = (f.reacts.flatMap single).map fun R => quantTexts R.quantity := by
    show (reactionList (f.dataOf rd)).map _ = _
    rw [C80_all f rd single hrx]
  have hne : (x4RxOps D).members (.comb (f.dataOf rd)) ≠ [] := by
    rw [hm]
    obtain ⟨x, l, hx⟩ := List.exists_cons_of_ne_nil (reacts_ne_nil f)
    have : single x ≠ [] := by
      rcases hrx x (by rw [hx]; simp) with ⟨R, -, h⟩ | ⟨n, m, ms, rr, -, h⟩ <;> rw [h] <;> simp
    rw [hx]
    simp [this]
  have hall : ∀ q, (∀ y ∈ (x4RxOps D).members (.comb (f.dataOf rd)), y = q) ↔ ∀ x ∈ f.reacts, ∀ R ∈ single x, qs R = q := by
    intro q
    rw [hm]
    constructor
    · intro h x hx R hR
      have := h (quantTexts R.quantity) (List.mem_map.2 ⟨R, List.mem_flatMap.2 ⟨x, hx, hR⟩, rfl⟩)
      rwa [hqs x hx R hR, quantTexts_str] at this
    · intro h y hy
      obtain ⟨R, hR, rfl⟩ := List.mem_map.1 hy
      obtain ⟨x, hx, hR⟩ := List.mem_flatMap.1 hR
      rw [hqs x hx R hR, quantTexts_str]
      exact h x hx R hR
  obtain ⟨h1, h2⟩ := C35_coupled (x4RxOps D) (.comb (f.dataOf rd)) rfl
  constructor
  · intro q
    rw [h1 q, hall q]
    exact ⟨fun h => h.2, fun h => ⟨hne, h⟩⟩
  · intro h
    apply h2
    rintro q ⟨-, hq⟩
    obtain ⟨x, hx, R, hR, hne⟩ := h q
    exact hne ((hall q).1 hq x hx R hR)

/-- C35_combination applies to a ratio of two cross sections. -/
example (D : RxDicts) (p : Process) (x y : ReactText) :
    effectiveQuant (x4RxOps D) (.comb ((FactorText.par (.rx x) (.cons ['/'] (.rx y) .nil)).dataOf fun _ => .rx ⟨p, [.str chars!"SIG"]⟩)) =
      .ok [chars!"SIG"] :=
  ((C35_combination D _ _ (fun _ => [⟨p, [.str chars!"SIG"]⟩]) (fun x _ => .inl ⟨_, rfl, rfl⟩) (fun _ => [chars!"SIG"])
    (fun x _ R hR => by rw [List.mem_singleton.1 hR]; rfl)).1 _).2 (fun _ _ _ _ => rfl)

end X4
