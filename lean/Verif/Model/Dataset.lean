import Verif.Model.ColumnParsing
import Verif.Model.Entry
/-! Model of `x4i3/exfor_dataset.py` and of `X4Entry.getDataSets`. -/
namespace X4
variable {ρ N : Type}

/-! ### metadata -/

/-- `str.title()` (ASCII letters only): state is "the previous character is a letter", Python built-in, as used in exfor_field.py:432 -/
def titleLoop : Bool → Str → Str
  | _, [] => []
  | prev, c :: s => (if prev then c.toLower else c.toUpper) :: titleLoop c.isAlpha s
/-- `str.title()`, as used in exfor_field.py:432 -/
def pyTitle (s : Str) : Str := titleLoop false s

/-- `X4TitleField.__str__`, exfor_field.py:428-433 -/
def titleText (f : PlainField) : Str :=
  joinWith [' '] (f.sortedKeys.map fun p => strip (pyTitle (subStr ((f.subs.get? p).getD []))))
/-- `str(bib.setdefault('TITLE'))`, exfor_section.py:141 -/
def BibField.titleText : BibField ρ → Str
  | .plain f => X4.titleText f
  | _ => "None".toList

/-- The seven attributes of `X4BibMetaData` (exfor_section.py:125); `none` is `None` or the
text 'None'. -/
structure DsMeta (ρ : Type) where
  year : Option Str := none
  pubType : Option Str := none
  reference : Option (BibField ρ) := none
  institute : Option (BibField ρ) := none
  author : Option (List Str) := none
  title : Option Str := none
  subent : Option Str := some "????????".toList
  deriving DecidableEq, Repr

/-- `not x in [None, "None"]` for a text, exfor_dataset.py:56 -/
def notNone (x : Option Str) : Option Str := if x = some "None".toList then none else x

/-- the attributes of a metadata record, as `X4DataSet.__init__` sees them, exfor_dataset.py:55-57 -/
def BibMeta.attrs (m : BibMeta ρ) : DsMeta ρ :=
  { year := notNone m.year, pubType := notNone m.pubType, reference := m.reference, institute := m.institute,
    author := m.author, title := notNone (some m.title.titleText), subent := notNone (some m.subent) }

/-- one record of the loop, exfor_dataset.py:55-57: attributes that have a value are taken over -/
def DsMeta.over (old new : DsMeta ρ) : DsMeta ρ :=
  { year := new.year.or old.year, pubType := new.pubType.or old.pubType, reference := new.reference.or old.reference,
    institute := new.institute.or old.institute, author := new.author.or old.author, title := new.title.or old.title,
    subent := new.subent.or old.subent }

/-- `None` in the list of records is skipped, exfor_dataset.py:53-54 -/
def DsMeta.overOpt (old : DsMeta ρ) (new : Option (DsMeta ρ)) : DsMeta ρ :=
  match new with
  | none => old
  | some m => old.over m

/-- merged metadata, exfor_dataset.py:50-57 -/
def mergeMeta (ms : List (Option (DsMeta ρ))) : DsMeta ρ := ms.foldl DsMeta.overOpt {}

/-! ### datasets -/

/-- the dataset classes, exfor_dataset.py:44, 307-432 -/
inductive DsKind where
  | generic | crossSection | nubar | spectrumAve | resonanceInt | analyzingPower | angular | energyDist
  deriving DecidableEq, Repr

/-- What the datasets use of a measurement object: its quantity (`none` for the text
'Coupled' of reaction combinations), the quantities of the reactions in a combination, and
its `str()`. exfor_dataset.py:69-70, 257-258, 437-439 -/
structure RxOps (ρ : Type) where
  quantity : ρ → Option (List Str)
  members : ρ → List (List Str)
  text : ρ → Except PyErr Str

/-- the attributes of a dataset object, exfor_dataset.py:46-72 -/
structure DataSet (ρ N : Type) where
  kind : DsKind
  info : DsMeta ρ
  reaction : Option (ρ × Str)
  monitor : Option (List (Monitor ρ))
  coupled : Bool
  labels : List Str := []
  units : List (Option Str) := []
  data : List (List (Option N)) := []
  simplified : Bool := false
  /-- `referenceFrame`, only set by two subclasses (lines 378-382, 404-408) -/
  frame : Option Str := none
  deriving DecidableEq, Repr

/-- the part the column parsers look at, exfor_dataset.py:62-64 -/
def DataSet.table (d : DataSet ρ N) : Table N := { labels := d.labels, units := d.units, data := d.data }

/-! ### setData -/

/-- `other_pointers_columns`, exfor_dataset.py:85-86 -/
def otherColumns (d : DataSection) (pointer : Option Char) : List Nat :=
  (d.pointers.filter fun kv => decide (some kv.1 ≠ pointer)).flatMap Prod.snd

/-- the condition of exfor_dataset.py:88 -/
def keepCol (d : DataSection) (pointer : Option Char) (icol : Nat) : Bool :=
  decide (d.pointers = []) || !decide (icol ∈ otherColumns d pointer)

/-- label and unit of a column, `None` when it is filtered out, exfor_dataset.py:88-93 -/
def colHead (d : DataSection) (pointer : Option Char) (icol : Nat) : Except PyErr (Option (Str × Str)) :=
  if keepCol d pointer icol then
    match pyIdx d.labels icol with
    | .error e => .error e
    | .ok l => match pyIdx d.units icol with
      | .error e => .error e
      | .ok u => .ok (some (strip (slice l 0 10), strip (slice u 0 10)))
  else .ok none

/-- the columns of one section, exfor_dataset.py:85-93 -/
def secHeads (d : DataSection) (pointer : Option Char) : Except PyErr (List (Option (Str × Str))) :=
  mapE (colHead d pointer) (List.range d.numcols.toNat)

/-- headings of an optional section, exfor_dataset.py:81-84 -/
def optHeads (pointer : Option Char) : Option (Nat × DataSection) → Except PyErr (List (Option (Str × Str)))
  | none => .ok []
  | some d => secHeads d.2 pointer

/-- `column_offsets`: number of *kept* columns before each section, exfor_dataset.py:81-82 -/
def offsetsFrom (start : Nat) : List (List (Option (Str × Str))) → List Nat
  | [] => []
  | h :: r => start :: offsetsFrom (start + (h.filter Option.isSome).length) r

/-- `for x in data.data[irow]: if column_filter[icol]: row.append(x); icol += 1`, exfor_dataset.py:97-101 -/
def filterRow (filt : List Bool) (icol : Nat) : List (Option FloatLit) → Except PyErr (List (Option FloatLit))
  | [] => .ok []
  | x :: r =>
    match pyIdx filt icol with
    | .error e => .error e
    | .ok keep => match filterRow filt (icol + 1) r with
      | .error e => .error e
      | .ok t => .ok (if keep then x :: t else t)

variable [PyNum N]

/-- a cell read from a section, exfor_dataset.py:98-100, 112 -/
def cellNum (x : Option FloatLit) : Option N := x.map PyNum.ofLit

/-- one row of the new data, exfor_dataset.py:96-102 -/
def newRow (d : DataSection) (filt : List Bool) (offs : List Nat) (irow : Nat) : Except PyErr (List (Option N)) :=
  match pyIdx offs 2 with
  | .error e => .error e
  | .ok o => match pyIdx d.data irow with
    | .error e => .error e
    | .ok r => match filterRow filt o r with
      | .error e => .error e
      | .ok t => .ok (List.replicate o (some PyNum.zero) ++ t.map cellNum)

/-- `row[i] = x`, as used in exfor_dataset.py:111, 116 -/
def setIdx {α} (l : List α) (i : Nat) (x : α) : Except PyErr (List α) :=
  if i < l.length then .ok (l.set i x) else .error .indexError

/-- `row[column_offsets[…] + icol] = c.data[crow][icol]`, exfor_dataset.py:111-112, 116-117 -/
def writeCell (c : DataSection) (off crow : Nat) (row : List (Option N)) (icol : Nat) : Except PyErr (List (Option N)) :=
  match pyIdx c.data crow with
  | .error e => .error e
  | .ok r => match pyIdx r icol with
    | .error e => .error e
    | .ok x => setIdx row (off + icol) (cellNum x)

/-- writing the columns of row `crow` of a COMMON section into `row`, exfor_dataset.py:110-112, 115-117 -/
def writeCommon (c : DataSection) (off crow : Nat) (row : List (Option N)) : Except PyErr (List (Option N)) :=
  foldE (writeCell c off crow) row (List.range c.numcols.toNat)

/-- one step of the loop over `common`, exfor_dataset.py:105-117: rows of the dataset are rewritten -/
def commonStep (common : List (Option (Nat × DataSection))) (offs : List Nat) (rows : List (List (Option N)))
    (c : Option (Nat × DataSection)) : Except PyErr (List (List (Option N))) :=
  match c with
  | none => .ok rows
  | some (cid, sec) =>
    match pyIdx offs (common.findIdx fun x => x.map Prod.fst == some cid) with
    | .error e => .error e
    | .ok off =>
      if sec.numrows = 1 then mapE (writeCommon sec off 0) rows
      else
        match mapE (fun ir => writeCommon sec off ir.2 ir.1) (rows.zipIdx.take sec.numrows.toNat) with
        | .error e => .error e
        | .ok top => .ok (top ++ rows.drop sec.numrows.toNat)

/-- labels, units and rows computed by `setData` (exfor_dataset.py:74-117) for a dataset that
has none yet. A COMMON section comes with a number identifying the Python object, because
`common.index(c)` compares objects by identity. -/
def setData (d : DataSection) (common : List (Option (Nat × DataSection))) (pointer : Option Char) :
    Except PyErr (Table N) :=
  match mapE (optHeads pointer) common with
  | .error e => .error e
  | .ok chs => match secHeads d pointer with
    | .error e => .error e
    | .ok dh =>
      let all := (chs ++ [dh])
      let heads := all.flatten.filterMap id
      let filt := all.flatten.map Option.isSome
      let offs := offsetsFrom 0 all
      match mapE (newRow d filt offs) (List.range d.numrows.toNat) with
      | .error e => .error e
      | .ok rows => match foldE (commonStep common offs) rows common with
        | .error e => .error e
        | .ok rows => .ok { labels := heads.map Prod.fst, units := heads.map fun h => some h.2, data := rows }

/-! ### construction -/

/-- the frame set by `X4AngularDistributionDataSet` and `X4EnergyDistributionDataSet`, exfor_dataset.py:378-382, 404-408 -/
def frameOf (kind : DsKind) (labels : List Str) : Option Str :=
  if kind = .angular ∨ kind = .energyDist then
    some (if labels.any (hasSub "-CM".toList) then "Center of mass".toList else "Lab".toList)
  else none

/-- a constructor, exfor_dataset.py:46-72 and subclasses -/
def DataSet.build (rx : RxOps ρ) (kind : DsKind) (ms : List (Option (DsMeta ρ))) (common : List (Option (Nat × DataSection)))
    (reaction : Option (ρ × Str)) (monitor : Option (List (Monitor ρ))) (data : Option DataSection) (pointer : Option Char) :
    Except PyErr (DataSet ρ N) :=
  match (match data with
    | none => .ok { labels := [], units := [], data := [] }
    | some d => setData d common pointer : Except PyErr (Table N)) with
  | .error e => .error e
  | .ok t => .ok { kind, info := mergeMeta ms, reaction, monitor,
                   coupled := match reaction with | none => false | some r => (rx.quantity r.1).isNone,
                   labels := t.labels, units := t.units, data := t.data, frame := frameOf kind t.labels }

/-- exfor_dataset.py:445-465, 493-495 -/
def crossSectionQuants : List (List Str) :=
  [["SIG".toList], ["CN".toList, "SIG".toList], ["SIG".toList, "DERIV".toList], ["SIG".toList, "FCT".toList],
   ["DI".toList, "SIG".toList], ["SIG".toList, "EVAL".toList], ["SIG".toList, "EXP".toList], ["SIG".toList, "AV".toList]]
/-- exfor_dataset.py:466-492 -/
def spectrumQuants : List (List Str) :=
  [["SIG".toList, "MXW".toList], ["SIG".toList, "SPA".toList], ["SIG".toList, "SFC".toList, "EVAL".toList],
   ["SIG".toList, "SFC".toList, "EXP".toList], ["SIG".toList, "SFC".toList], ["SIG".toList, "FST".toList],
   ["SIG".toList, "RTE".toList], ["SIG".toList, "FIS".toList], ["SIG".toList, "FIS".toList, "EVAL".toList]]

/-- the `if`-chain of `X4DataSetFactory`, exfor_dataset.py:445-514 -/
def kindOf (q : List Str) : DsKind :=
  if q ∈ crossSectionQuants then .crossSection
  else if q ∈ spectrumQuants then .spectrumAve
  else if "RI".toList ∈ q then .resonanceInt
  else if "POL/DA".toList ∈ q then .analyzingPower
  else if "DA".toList ∈ q then .angular
  else if "NU".toList ∈ q then .nubar
  else if "DE".toList ∈ q then .energyDist
  else .generic

/-- the quantity used for the choice of the class, exfor_dataset.py:437-446. The message of the exception contains `str` of the
combination, so an exception of that takes its place. -/
def effectiveQuant (rx : RxOps ρ) (r : ρ) : Except PyErr (List Str) :=
  match rx.quantity r with
  | some q => .ok q
  | none => match unique (rx.members r) with
    | [q] => .ok q
    | _ => match rx.text r with
      | .error e => .error e
      | .ok _ => .error .notImplementedError

/-- `X4DataSetFactory(quant=r[0].quantity, …)`, exfor_dataset.py:435-514 -/
def dataSetFactory (rx : RxOps ρ) (ms : List (Option (DsMeta ρ))) (common : List (Option (Nat × DataSection)))
    (reaction : ρ × Str) (monitor : Option (List (Monitor ρ))) (data : DataSection) (pointer : Option Char) :
    Except PyErr (DataSet ρ N) :=
  match effectiveQuant rx reaction.1 with
  | .error e => .error e
  | .ok q => DataSet.build rx (kindOf q) ms common (some reaction) monitor (some data) pointer

/-! ### getSimplified -/

/-- value and uncertainty of a requested column, exfor_dataset.py:210-213 -/
def condensed (t : Table N) (ps : List Pair) : Except PyErr (Column N × Column N) :=
  match mapE (Pair.getValue t) ps with
  | .error e => .error e
  | .ok vs => match reduceE condense vs with
    | .error e => .error e
    | .ok v => match mapE (Pair.getError t) ps with
      | .error e => .error e
      | .ok es => match reduceE condense es with
        | .error e => .error e
        | .ok u => .ok (v, u)

/-- `col[2:] == [None for i in col[2:]]`, exfor_dataset.py:214-216 -/
def Column.empty (c : Column N) : Bool := c.vals.all Option.isNone

/-- body of the loop over `parserMap`, exfor_dataset.py:209-217 -/
def readColumns (t : Table N) (kv : Str × List Pair) : Except PyErr (Str × Column N × Column N) :=
  match condensed t kv.2 with
  | .error e => .error e
  | .ok c => if c.1.empty then .error (.noValuesGivenError kv.1) else .ok (kv.1, c)

/-- labels of the uncertainty columns, exfor_dataset.py:223-230 -/
def errHead (makeAll : Bool) (nc : Str × Column N × Column N) : List (Str × Option Str) :=
  if nc.2.2.empty then if makeAll then [("d(".toList ++ nc.1 ++ ")".toList, nc.2.1.unit)] else []
  else [("d(".toList ++ nc.1 ++ ")".toList, nc.2.2.unit)]

/-- uncertainty of a column in row `i`, exfor_dataset.py:236-243 -/
def errCell (makeAll failMissing : Bool) (i : Nat) (nc : Str × Column N × Column N) : Except PyErr (List (Option N)) :=
  if nc.2.2.empty then
    if makeAll then .ok [some PyNum.zero]
    else if failMissing then .error (.noUncertaintyGivenError nc.1)
    else .ok []
  else match pyIdx nc.2.2.vals i with
    | .error e => .error e
    | .ok x => .ok [x]

/-- one row, exfor_dataset.py:232-244 -/
def simpleRow (makeAll failMissing : Bool) (cols : List (Str × Column N × Column N)) (i : Nat) : Except PyErr (List (Option N)) :=
  match mapE (fun nc => pyIdx nc.2.1.vals i) cols with
  | .error e => .error e
  | .ok vs => match mapE (errCell makeAll failMissing i) cols with
    | .error e => .error e
    | .ok es => .ok (vs ++ es.flatten)

/-- `vals[column]` for the requested columns, exfor_dataset.py:222, 228, 230, 235, 243 -/
def pickColumn (cols : Dict Str (Column N × Column N)) (name : Str) : Except PyErr (Str × Column N × Column N) :=
  match cols.get name with
  | .error e => .error e
  | .ok c => .ok (name, c)

/-- `X4DataSet.getSimplified` with a parser map on a dataset that is not simplified yet,
exfor_dataset.py:195-246 -/
def simplifyTable (t : Table N) (parserMap : Dict Str (List Pair)) (names : List Str) (makeAll failMissing : Bool) :
    Except PyErr (Table N) :=
  if parserMap.keys.all (fun p => decide (p ∈ names)) then
    match mapE (readColumns t) parserMap with
    | .error e => .error e
    | .ok cols => match mapE (pickColumn cols) names with
      | .error e => .error e
      | .ok cs => match mapE (simpleRow makeAll failMissing cs) (List.range t.data.length) with
        | .error e => .error e
        | .ok rows => .ok { labels := cs.map Prod.fst ++ (cs.flatMap (errHead makeAll)).map Prod.fst,
                            units := cs.map (fun nc => nc.2.1.unit) ++ (cs.flatMap (errHead makeAll)).map Prod.snd,
                            data := rows }
  else .error .keyError

/-- the parser map and the column names given by a subclass, exfor_dataset.py:307-418 -/
def parserMapOf : DsKind → Option (Dict Str (List Pair) × List Str)
  | .crossSection => some ([("Energy".toList, incidentEnergyParserList), ("Data".toList, csDataParserList)],
      ["Energy".toList, "Data".toList])
  | .nubar => some ([("Energy".toList, incidentEnergyParserList), ("Data".toList, nubarParserList)],
      ["Energy".toList, "Data".toList])
  | .spectrumAve => some ([("Energy".toList, spectrumArgumentParserList), ("Data".toList, csDataParserList)],
      ["Energy".toList, "Data".toList])
  | .angular => some ([("Energy".toList, incidentEnergyParserList), ("Angle".toList, angleParserList),
      ("Data".toList, angDistParserList)], ["Energy".toList, "Angle".toList, "Data".toList])
  | .energyDist => some ([("Energy".toList, incidentEnergyParserList), ("E'".toList, outgoingEnergyParserList),
      ("Data".toList, energyDistParserList)], ["Energy".toList, "E'".toList, "Data".toList])
  | _ => none

/-- `X4DataSet.getSimplified(parserMap, columnNames, …)`, exfor_dataset.py:182-246; `none` for
`parserMap=None` -/
def DataSet.simplifyWith (d : DataSet ρ N) (pm : Option (Dict Str (List Pair) × List Str)) (makeAll failMissing : Bool) :
    Except PyErr (DataSet ρ N) :=
  if d.simplified then .ok d
  else match pm with
    | none => .ok d
    | some m => match simplifyTable d.table m.1 m.2 makeAll failMissing with
      | .error e => .error e
      | .ok t => .ok { d with labels := t.labels, units := t.units, data := t.data, simplified := true }

/-- `d.getSimplified(makeAllColumns, failIfMissingErrors)` of each class, exfor_dataset.py:313-321, 330-333, 343-350, 359-360, 369-370, 389-396, 415-422 -/
def DataSet.getSimplified (d : DataSet ρ N) (makeAll failMissing : Bool) : Except PyErr (DataSet ρ N) :=
  match d.kind with
  | .resonanceInt => .error .notImplementedError
  | .analyzingPower => .ok d
  | k => d.simplifyWith (parserMapOf k) makeAll failMissing

/-! ### append -/

/-- `str(self.reaction[0])`; `None[0]` is a `TypeError`, exfor_dataset.py:257-258, 271-272 -/
def reactionText (rx : RxOps ρ) (d : DataSet ρ N) : Except PyErr Str :=
  match d.reaction with
  | none => .error .typeError
  | some r => rx.text r.1

/-- `append`, exfor_dataset.py:248-277: the receiver afterwards. The message printed when the
datasets do not match is left out, but not the exceptions its construction may raise:
with one reaction missing, `self.reaction[0]` fails, and `str` of a reaction may fail. The reactions are compared
like Python objects, that is by identity, if `ρ` contains the identity. Exceptions of `str(self.monitor)` are left out. -/
def DataSet.append [DecidableEq ρ] (rx : RxOps ρ) (d o : DataSet ρ N) : Except PyErr (DataSet ρ N) :=
  if d.labels = [] ∧ d.units = [] ∧ d.data = [] then
    .ok { d with reaction := o.reaction, monitor := o.monitor, labels := o.labels, units := o.units,
                 data := o.data, simplified := o.simplified }
  else if d.labels = o.labels ∧ d.units = o.units then
    match reactionText rx d with
    | .error e => .error e
    | .ok t => match reactionText rx o with
      | .error e => .error e
      | .ok t' => if t = t' then .ok { d with data := d.data ++ o.data } else .ok d
  else if d.reaction ≠ o.reaction then
    match reactionText rx d with
    | .error e => .error e
    | .ok _ => match reactionText rx o with
      | .error e => .error e
      | .ok _ => .ok d
  else .ok d

/-! ### getDataSets -/

/-- what `getDataSets` takes from a subentry, exfor_entry.py:226-238, 247-259 -/
structure SubInfo (ρ : Type) where
  info : Option (DsMeta ρ) := none
  reactions : Dict Char (ρ × Str) := []
  monitors : Dict Char (List (Monitor ρ)) := []
  common : Option DataSection := none
  deriving DecidableEq

/-- `bib['REACTION'].reactions` if there is such a field, exfor_entry.py:233-234, 254-255 -/
def BibSection.reactions (b : BibSection ρ) : Except PyErr (Dict Char (ρ × Str)) :=
  match b.fields.get? (some "REACTION".toList) with
  | none => .ok []
  | some (.reaction _ r) => .ok r
  | some _ => .error .attributeError
/-- `bib['MONITOR'].reactions` if there is such a field, exfor_entry.py:235-236, 256-257 -/
def BibSection.monitors (b : BibSection ρ) : Except PyErr (Dict Char (List (Monitor ρ))) :=
  match b.fields.get? (some "MONITOR".toList) with
  | none => .ok []
  | some (.monitor _ m) => .ok m
  | some _ => .error .attributeError

/-- `sub['COMMON']` if present, exfor_entry.py:237-238, 258-259 -/
def SubEntry.common (s : SubEntry ρ) : Option DataSection :=
  match s.sections.get? "COMMON".toList with
  | some (.data d) => some d
  | _ => none
/-- `sub['DATA']` if present, exfor_entry.py:244 -/
def SubEntry.data (s : SubEntry ρ) : Option DataSection :=
  match s.sections.get? "DATA".toList with
  | some (.data d) => some d
  | _ => none
/-- `sub['BIB']` if present, exfor_entry.py:231, 252 -/
def SubEntry.bib (s : SubEntry ρ) : Option (BibSection ρ) :=
  match s.sections.get? "BIB".toList with
  | some (.bib b) => some b
  | _ => none

/-- the information of a subentry, and the subentry afterwards (`meta()` adds a title), exfor_entry.py:226-238, 247-259 -/
def SubEntry.info (s : SubEntry ρ) (accnum : Str) : Except PyErr (SubInfo ρ × SubEntry ρ) :=
  match s.bib with
  | none => .ok ({ common := s.common }, s)
  | some b =>
    match b.meta accnum with
    | .error e => .error e
    | .ok m =>
      match m.2.reactions with
      | .error e => .error e
      | .ok rx => match m.2.monitors with
        | .error e => .error e
        | .ok mon => .ok ({ info := some m.1.attrs, reactions := rx, monitors := mon, common := s.common },
            { s with sections := s.sections.set "BIB".toList (.bib m.2) })

/-- (entry, subentry, pointer), exfor_entry.py:266, 283 -/
abbrev DsKey := Str × Option Str × Char

/-- state of `getDataSets`: the result, `self.errors` (exception instead of message), the entry, exfor_entry.py:156, 222, 275-278 -/
structure DsState (ρ N : Type) where
  datasets : Dict DsKey (DataSet ρ N) := []
  errors : Dict DsKey PyErr := []
  entry : Entry ρ

/-- one round of the loops of exfor_entry.py:265-278, 282-295; `from_` is where reaction and monitor
are taken from -/
def dsStep (rx : RxOps ρ) (accnum : Str) (sub : Option Str) (ms : List (Option (DsMeta ρ)))
    (common : List (Option (Nat × DataSection))) (data : DataSection) (from_ : SubInfo ρ)
    (st : DsState ρ N) (pr : Char × (ρ × Str)) : Except PyErr (DsState ρ N) :=
  match dataSetFactory rx ms common pr.2 (from_.monitors.get? pr.1) data (some pr.1) with
  | .ok d => .ok { st with datasets := st.datasets.set (accnum, sub, pr.1) d }
  | .error .notImplementedError => .ok { st with errors := st.errors.set (accnum, sub, pr.1) .notImplementedError }
  | .error .indexError => .ok { st with errors := st.errors.set (accnum, sub, pr.1) .indexError }
  | .error e => .error e

/-- `[main_common, subent_common]` with object identities: the two are the same object iff the
subentry is the main one, exfor_entry.py:261 -/
def commonList (mainKey key : Option Str) (mainCommon subCommon : Option DataSection) : List (Option (Nat × DataSection)) :=
  [mainCommon.map fun c => (0, c), subCommon.map fun c => (if key = mainKey then 0 else 1, c)]

/-- the loop body for one subentry, exfor_entry.py:241-295 -/
def subStep (rx : RxOps ρ) (mainKey : Option Str) (main : SubInfo ρ) (st : DsState ρ N) (key : Option Str) :
    Except PyErr (DsState ρ N) :=
  match st.entry.subs.get? key with
  | none => .ok st    -- not reached: `key` is a key of the entry
  | some s =>
    match s.data with
    | none => .ok st
    | some data =>
      match s.info (s.accnum.getD "None".toList) with
      | .error e => .error e
      | .ok si =>
        match foldE (dsStep rx st.entry.accnum s.accnum [main.info, si.1.info]
            (commonList mainKey key main.common si.1.common) data main)
            { st with entry := { st.entry with subs := st.entry.subs.set key si.2 } } main.reactions with
        | .error e => .error e
        | .ok st' => foldE (dsStep rx st.entry.accnum s.accnum [main.info, si.1.info]
            (commonList mainKey key main.common si.1.common) data si.1) st' si.1.reactions

/-- key of `self[1]`, exfor_entry.py:188, 232 -/
def Entry.mainKey (e : Entry ρ) : Option Str := some (e.accnum ++ "001".toList)

/-- `getDataSets`, exfor_entry.py:221-296, started with the recorded errors `errs` -/
def Entry.getDataSets (rx : RxOps ρ) (e : Entry ρ) (errs : Dict DsKey PyErr) : Except PyErr (DsState ρ N) :=
  match e.deleted with
  | .error x => .error x
  | .ok true => .ok { errors := errs, entry := e }
  | .ok false =>
    match e.getItem (.int 1) with
    | .error x => .error x
    | .ok s =>
      match s.info (e.accnum ++ "001".toList) with
      | .error x => .error x
      | .ok mi => foldE (subStep rx e.mainKey mi.1)
          { errors := errs, entry := { e with subs := e.subs.set e.mainKey mi.2 } } e.subs.keys

/-- the exceptions caught by `getSimplifiedDataSets`, exfor_entry.py:304-339 -/
def simplifyHandled : PyErr → Bool
  | .notImplementedError | .noValuesGivenError _ | .noUncertaintyGivenError _ | .brokenNumberError _
  | .typeError | .indexError => true
  | _ => false

/-- one round of the loop, exfor_entry.py:300-339 -/
def simplifyStep (makeAll : Bool) (st : DsState ρ N) (kd : DsKey × DataSet ρ N) : Except PyErr (DsState ρ N) :=
  match kd.2.getSimplified makeAll false with
  | .ok d => .ok { st with datasets := st.datasets.set kd.1 d }
  | .error e => if simplifyHandled e then .ok { st with errors := st.errors.set kd.1 e } else .error e

/-- `getSimplifiedDataSets`, exfor_entry.py:298-340 -/
def Entry.getSimplifiedDataSets (rx : RxOps ρ) (e : Entry ρ) (errs : Dict DsKey PyErr) (makeAll : Bool) :
    Except PyErr (DsState ρ N) :=
  match e.getDataSets (N := N) rx errs with
  | .error x => .error x
  | .ok st => foldE (simplifyStep makeAll) st st.datasets

end X4
