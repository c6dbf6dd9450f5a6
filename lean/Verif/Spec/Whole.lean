import Verif.Spec.Missing
import Verif.Spec.Spectrum
import Verif.Spec.Wildcards
/-! The quantities that a table gives, for each kind of dataset. -/
namespace X4

/-- The quantities of the simplified dataset of a kind, read from a table as its headings and units say. -/
inductive QuantitiesGiven (t : Table ℝ) : DsKind → List Quantity → Prop
  | crossSection {q1 q2 : Quantity} : EnergyGiven "EN".toList "Energy".toList t q1 → DataGiven unitsOfCrossSection t q2 → QuantitiesGiven t .crossSection [q1, q2]
  | nubar {q1 q2 : Quantity} : EnergyGiven "EN".toList "Energy".toList t q1 → DataGiven unitsOfNubar t q2 → QuantitiesGiven t .nubar [q1, q2]
  | spectrumAve {q1 q2 : Quantity} : SpectrumGiven t q1 → DataGiven unitsOfCrossSection t q2 → QuantitiesGiven t .spectrumAve [q1, q2]
  | angular {q1 q2 q3 : Quantity} : EnergyGiven "EN".toList "Energy".toList t q1 → AngleGiven t q2 → DistGiven unitsOfAngDist t q3 → QuantitiesGiven t .angular [q1, q2, q3]
  | energyDist {q1 q2 q3 : Quantity} : EnergyGiven "EN".toList "Energy".toList t q1 → EnergyGiven "E".toList "E'".toList t q2 → DistGiven unitsOfSpectrum t q3 →
      QuantitiesGiven t .energyDist [q1, q2, q3]

/-- a row of the index meets the criteria (with wildcards in reactions) and names the subentry -/
def WildHit (table : List Row) (c : Criteria) (acc : Str) : Prop := ∃ row ∈ table, WildMatches c row ∧ row.subent = some acc

end X4
