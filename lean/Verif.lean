import Verif.Props.Number
import Verif.Props.Utilities
import Verif.Props.DataSection
import Verif.Props.Field
import Verif.Props.Entry
import Verif.Props.Bib
import Verif.Props.Column
import Verif.Props.Average
import Verif.Props.Dataset
import Verif.Props.Simplify
import Verif.Props.Factory
import Verif.Props.DataSets
import Verif.Props.DatasetHeap
import Verif.Props.Reference
import Verif.Props.Tables
import Verif.Props.Dicts
import Verif.Props.DictServer
import Verif.Props.Reaction
import Verif.Props.ReactionText
import Verif.Props.Manager
import Verif.Props.Cache
import Verif.Props.Install
import Verif.Props.TextFields
import Verif.Props.ReferenceFields
import Verif.Props.Coupled
import Verif.Props.Metadata
import Verif.Props.DatasetText
import Verif.Props.Isomers
import Verif.Props.Printing
import Verif.Props.ReprText
import Verif.Props.EntryDoc
import Verif.Props.EntrySets
import Verif.Props.Retrieval
import Verif.Props.Simple
import Verif.Props.SimpleRetrieval
import Verif.Props.Nuclei
import Verif.Props.FieldText
import Verif.Props.Spectrum
import Verif.Props.SI
import Verif.Props.TitleText
import Verif.Model.EntryText
import Verif.Props.EntryText
import Verif.Model.Examples
import Verif.Props.Examples
import Verif.Props.Unreadable
import Verif.Spec.MonitorText
import Verif.Props.MonitorText
import Verif.Model.Equation
import Verif.Spec.Equation
import Verif.Props.Equation
import Verif.Model.DatasetAccess
import Verif.Spec.ListText
import Verif.Props.DatasetAccess
import Verif.Props.Residual
import Verif.Lemmas.Breaks
import Verif.Lemmas.BreaksReaction
import Verif.Props.Breaks
import Verif.Props.EntryRepr
import Verif.Spec.Readable
import Verif.Props.Readable
import Verif.Model.Messages
import Verif.Spec.Messages
import Verif.Props.Messages
import Verif.Model.Helpers
import Verif.Props.Helpers
import Verif.Model.Base
import Verif.Props.Base
import Verif.Py.Rounded
import Verif.Spec.Rounded
import Verif.Lemmas.Rounded
import Verif.Lemmas.RoundedTable
import Verif.Lemmas.RoundedSimple
import Verif.Lemmas.RoundedBuild
import Verif.Props.Rounding
import Verif.Spec.Kept
import Verif.Lemmas.Kept
import Verif.Props.Kept
import Verif.Lemmas.RowWise
import Verif.Props.RowWise
import Verif.Lemmas.Subset
import Verif.Props.Subset
import Verif.Props.DatasetMonitor
import Verif.Props.DatasetInfo
import Verif.Props.EntryRows
import Verif.Props.ColumnOrder
import Verif.Props.ColumnPlaces
import Verif.Spec.UnitChoice
import Verif.Props.UnitChoice
import Verif.Props.UnitEntries
import Verif.Spec.Percent
import Verif.Props.Percent
import Verif.Props.PercentEntries
import Verif.Spec.Layout
import Verif.Props.Layout
import Verif.Props.LayoutDemo
import Verif.Props.LayoutRetrieval
import Verif.Spec.Quotes
import Verif.Props.Quotes
import Verif.Spec.SearchCase
import Verif.Props.SearchCase
import Verif.Spec.Wildcards
import Verif.Props.Wildcards
import Verif.Spec.Missing
import Verif.Props.Missing
import Verif.Spec.Whole
import Verif.Props.Whole
import Verif.Spec.Updates
import Verif.Props.Updates
import Verif.Spec.LineEnds
import Verif.Props.LineEnds
import Verif.Model.Session
import Verif.Model.SessionLeft
import Verif.Props.Session
import Verif.Props.SessionOrder
import Verif.Props.Unchanged
import Verif.Props.SessionLeft
import Verif.Props.RootEnergy
import Verif.Conformance.Recorded
import Verif.Conformance.Entries
import Verif.Conformance.Index
