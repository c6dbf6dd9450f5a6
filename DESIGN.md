# Formal model of x4i3 (EXFOR access library) in Lean 4

Everything lives in `lean/Verif`:

| folder | content |
|---|---|
| `Py/` | the fragment of Python used by the code: strings, `int()`, `float()` literals, dicts, sorting, loops that may raise, exceptions |
| `Model/` | the modelled modules; each definition cites the lines in `/repo/x4i3` it models |
| `Spec/` | small independent specifications used in theorem statements |
| `Lemmas/` | helper lemmas |
| `Props/` | the property theorems (`C<nn>_…`, one file per area), each with `example`s showing that the hypotheses can be met |

`tools/props.py` writes `properties.jsonl`, `tools/manifest.py` (with `tools/notes.json`) writes
`MANIFEST.json`, `tools/tables.py` writes the constant tables copied from `/repo`
(`Model/AbundanceData`, `Model/EndlZ`, `Model/DictTexts`).

## Modelling conventions

* A Python `str` is a `List Char`. Files are opened as latin-1 by the code, so
  the white space set used by `strip`/`split` is the latin-1 part of Python's.
  `upper`, `lower`, `capitalize`, `title` are modelled for ASCII letters only.
* A function that can raise returns `Except PyErr α`; `PyErr` carries the
  exception class (and a message where the code makes it observable).
* A `dict` is an insertion-ordered association list with an in-place update.
* `float(str)` is modelled by the exact decimal literal denoted by the string
  (`FloatLit`). Arithmetic on
  columns is generic in a class `PyNum` of number operations, so that purely
  structural theorems hold for IEEE arithmetic as well; theorems about values
  are stated for the reals (`Py/RealNum.lean`), where `inf` and `nan` do not exist.
  `Py/Rounded.lean` is a second instance, with rounding after every operation (any rounding with a bounded relative error, in
  particular to 53 binary digits; no overflow and no underflow); C112 compares the two.
* Mutable objects: mutation is modelled by returning the new value, except
  where aliasing matters (`append`, `sort`, `getSimplified` on shared row lists, C24 and C36),
  where `Model/DatasetHeap` has an explicit heap.
* Python recursion (the grammars, isomer arithmetic) is modelled by structural recursion on a
  fuel argument; the theorems say which fuel suffices, or hold for all fuel.
* Interruption and concurrency with the operating system: `Model/Install` is a small-step
  relation; every reachable state is a crash point. `Model/Cache` takes the folder seen by each access as
  an input, so that the folder may change between accesses in any way.

If a property in `properties.jsonl` is false of the code, the model follows the
code, the negation is proved (`*_refuted`; for a witness, or where possible for all inputs of a
kind), and the part that does hold is kept as a theorem with suffix `_partial`.
Theorems without these suffixes state their property for all inputs in their hypotheses.

## What is modelled

| code | model | remarks |
|---|---|---|
| `exfor_utilities.py` (`unique`, tolerance comparison, FORTRAN numbers, chunking of requests, tables of dicts) | `Model/Utilities` | |
| `exfor_section.py`: `chunkify…`, `X4DataSection`, `X4BibSection` | `Model/DataSection`, `Model/Bib` | |
| `exfor_field.py`: chunking, field type and pointer, `X4PlainField`, `X4ReactionField`, `X4MonitorField`, field constructors | `Model/Field`, `Model/Bib` | the parsers for reactions, references, authors and institutes are parameters (`FieldParsers`) of the sections, subentries and entries; `x4Parsers` in `Model/TextFields` is the instance that the code uses |
| `exfor_subentry.py`, `exfor_entry.py` | `Model/SubEntry`, `Model/Entry`, `Model/Dataset`, `Model/Cache` | |
| `exfor_column_parsing.py` | `Model/ColumnParsing` | all parser classes and tables of labels and units |
| `exfor_dataset.py` | `Model/Dataset`, `Model/DatasetHeap` | what a measurement object tells (`quantity`, members, `str`, which may fail) is a parameter (`RxOps`); `x4RxOps` for the objects of `exfor_reactions.py` |
| `exfor_reference.py` | `Model/Reference` (years), `Model/TextFields` | |
| metadata and their texts (`X4BibMetaData`, `X4EntryMetaData`), texts of fields and references | `Model/Metadata` | |
| `__str__` and `csv` of datasets and DATA sections | `Model/DatasetText` | the texts of numbers, reactions and monitors are parameters; `csv.writer` is modelled |
| `getEquation`, `getX4ReactionList` of REACTION fields | `Model/Equation` | |
| size, cells and `__repr__` of datasets | `Model/DatasetAccess` | the texts of numbers and reactions are parameters |
| `pyparsing3.py` (the combinators used), `exfor_grammers.py` | `Model/PyParsing`, `Model/Grammar` (reactions), `Model/TextGrammar` (texts, authors, references) | the number of unfoldings of recursive grammars is an argument, set to more than the length of the text |
| `__str__` of sections, subentries, entries | `Model/EntryText` | `str` of numbers is a parameter |
| `examples/get-entry.py`, `examples/plotX4.py` | `Model/Examples` | printed texts and how the program ends; `print` of datasets is a parameter |
| `errors` of an entry, texts of `exfor_exceptions.py` | `Model/Messages` | texts of Python's own exceptions are a parameter |
| `chunkifyX4TextField`, `extractX4FieldPointer`, `prettyprint_table` | `Model/Helpers` | |
| `exfor_particle.py`, `exfor_reactions.py` | `Model/Particle`, `Model/Reaction` | |
| `exfor_dicts.py`, `endl_Z.py`, `abundance.py` | `Model/Dicts`, `Model/DictTexts`, `Model/EndlZ`, `Model/Abundance`, `Model/AbundanceData` | tables copied by `tools/tables.py` |
| `exfor_manager.py` | `Model/Manager`, `Model/Base`, `Model/Sql` | the part of SQLite that the generated statements use |
| `__init__.py` (`DataBaseCache`, `_download_and_unpack_file`) | `Model/Cache`, `Model/Install` | the presence check at import is commented out in the code at this commit; `allPresent` is that check |

## What is not modelled

Plotting and GUI tools, `formatExceptionInfo`, `timeit` and `latex_format_table` (exfor_utilities.py), `decompress_entry` (exfor_manager.py), the texts of exceptions that are not recorded in `errors` of an entry, command line scripts other than `examples/get-entry.py` and `examples/plotX4.py`, logging and printing elsewhere, the test suite; the libraries `sqlite3`,
`requests`, `tarfile`, `pickle`, `shutil` themselves (only the behaviour that the code relies on, see the comments in
`Model/Sql` and `Model/Install`); symbolic links; overflow, underflow, `inf` and `nan` of IEEE numbers; error messages, except where the code
makes them observable; non-ASCII case mappings; `pyparsing2.py`; packrat caching of pyparsing.

## How the properties are approached

* C01-C06 (data sections): slicing lemmas on the flattened string; C04/C05 hold for ≤6 columns, refuted for more;
  C06 holds for distinct labels.
* C07: `float()`'s accepted grammar and the two fallback branches.
* C08-C09, C37-C43, C63: generic chunker; unique decomposition relation as inductive
  specification; soundness and determinism by induction over the lines.
* C10-C14: the factory over an abstract file system; constructors and `__getitem__`.
* C15-C18, C35: loops of `getDataSets` and the factory over abstract construction outcomes.
* C19-C25, C36: `setData`, `getSimplified`, `append`; heap model for shared lists.
* C26-C34: column parsers over abstract numbers, values over the reals.
* C44-C48: `query` down to the SQL text; lexer, parser and evaluator of the
  generated fragment, so that the effect of quotes and wildcards in arguments is visible.
* C49-C50: cache as a state machine over histories of accesses.
* C51-C52: transition system for the installation; invariants over all reachable states.
* C53-C55, C64, C65: particles and reactions; the parser combinators of pyparsing are modelled and the
  grammar is proved to read the texts of an independent writer (`Spec/ReactionText`).
* C56-C59: finite tables decided by kernel computation, lifted to all keys.
* C60-C62: list lemmas.
* C66-C71: the grammars of references, authors and institutes on texts built from words and parentheses; induction over the words.
* C72-C78: texts made for people and files made for programs; C76 and C78 read them back with an independent reader (`Spec/Csv`).
* C79-C84: isomeric states, lists and texts of combinations, texts of reactions; C84 prints and parses again, using that the
  residual of the printed products is computed as before (`setResidual_again`).
* C85-C87: an independent writer of entry files (`Spec/EntryDoc`); the chunkers, section parsers and `getDataSets` composed on
  its output, using the soundness and determinism results for the single steps; C87 adds the index and the file access.
* C88: an independent description of the tables (`Spec/Simple`) and of the simplified table in canonical units; each parser contributes a
  value and an uncertainty as functions of the row, the lists of parsers their first contribution; composed with C87.
* C89-C90: objects made from single texts, and the texts of fields; quoted texts are read back with an independent reader.
* C91: as C88, for the temperatures of spectrum averages. C92: the conversion table against SI values of the units (`Spec/SI`).
* C93: words of printed texts against the words of the written lines.
* C94: printed sections, subentries and entries; tables are read back with the model of the reader itself.
* C95-C96: the programs `get-entry` and `plotX4` on databases written by `Spec/EntryDoc`, using C85 and C87.
* C97: the first thing in a document that cannot be read (`SubDoc.Fails`), against the chain of constructors.
* C98: the monitors as they are written in a field (`MonEntry`: heading, code on one or two lines, free text), against the loop that splits and parses the lines.
* C99: the words of a written combination (`FactorText.words`) and the filling in of names (`fillIn`), against `getEquation` and `getX4ReactionList`.
* C100: an index counted from either end (`meant`) and a reader of list literals (`lexList`), against `__getitem__` and `__repr__`.
* C101: charge and mass number of what is written (`ProdText.Carries`, with its own table of light particles), against `setResidual` on the text.
* C102: a text with the blanks inserted into it is a list of characters with blanks (`Spaced`); every combinator keeps the two runs in step (`ReadsSpaced`), where alternatives after the first have to leave the blanks behind what they read, so that the longest match is the same.
* C103: the loop over the listed dictionaries against the files that are there, by induction over the list.
* C104: the printed lines are a section with one chunk per field (`FieldLines`), each of which is read as the field it came from; the lines of the sections are cut where they were joined (`SecLines`), since no line in between begins with END.
* C105: `averageColumns` over the reals.
* C106: readable names by their own tables and rules (`Spec/Readable`), against `str` of the reaction read from the text.
* C107: messages by the outcome of the attempts to make each set (`Spec/Messages`); C108 to C110: written codes, columns of lines; C111: settings as a dictionary, with `sqlite3.connect` as a parameter.
* C112: the two number types side by side: every function that reads or combines columns keeps a relation between a rounded number and the exact one, which bounds their difference by the number of roundings.
* C113: a predicate on parsers (the characters of the tokens and of what is left are those of the input, separators aside), closed under all combinators, and then followed through the objects made from the tokens.
* C114: a predicate on column parsers (label and unit depend on the headings, every entry on its row), shown for all classes of parsers, and the formula of C23 for the simplified table.
* C115: getDataSets succeeds iff every subentry by itself does (with the first one), together with the formula of C17 for the datasets.
* C116: the record of each subentry is computed from its fields as they are written (C85), then merged as in C22.
* C117: a table as a list of whole columns; each parser uses the first column it can use, and its headings are of one family.
* C118: every parser takes all units of a kind or none, all units of a kind become the same unit, and C92 says that the quantity stays the same; with the columns of C117 this gives the tables.
* C119: the columns of C117 once more; a column in percent and the same column in a unit are read as `k` and `percentOf value k`, and every pair of parsers gives the same for both.
* C120: the layouts of a document are given by what a reader sees (words in the first columns, texts of cells, columns 1-66 of bibliographic lines); all parts of the constructors of entries, subentries and sections are shown to give the same for a layout as for the written file. The second counter of tables may count rows, rows with headings (as COMMON sections do) or lines; a script (not committed) finds that all 122 entry files of the tests have such a layout.
* C121: `retrieve` and `get-entry` use files only through `x4EntryFactory`, so C120 gives equality; a directory with files in any layout is compared with one with the written files.
* C122: the lexer of `Model/Sql` is followed through texts with doubled quotes (the tokens are those of the meant texts), and the number of quotes read is even whenever it succeeds.
* C123: both texts of the condition are the same character by character (`upper` and `capitalize` forget the case); what `capitalize` gives has no capital letter after the first, so no row with one is selected. The names with inner capitals are not made up: `Le Brun`, `Van Garderen` and `Nadel-Turonski` stand so in `x4i3/tests/data/index.tbl`.
* C124: `LIKE` is compared with an inductive definition of patterns; `C87_retrieve` was split so that it applies to any result of a query (`retrieve_grouped`).
* C125: the headings and units of each quantity are listed in `Spec/Missing`; that they cover all parsers of values is decided, the rest holds for all tables. The examples have the columns of 10316003, 13795002 and 22831028.
* C126: `QuantitiesGiven` (`Spec/Whole`) names, for each kind of dataset, which quantities of C88 and C91 it has; the rest composes C86, C88, C91, C112, C120, C121, C124 and C125. `rowsTable` is the table of C86_rows.
* C127: rows belong to the entry in the first five characters of their subentry number (`entryOfRow`, `Spec/Updates`). The SQL condition is read once for all indexes (`query_shape`), which is why it holds for all criteria.
* C128: `OnDisk` (`Spec/LineEnds`) says which bytes hold which lines; it is proved equivalent to what decoding, universal newlines and `readlines` give (`C128_read`), so that the theorems on files as lists of lines apply to folders of bytes.
* C129: calls on an entry object as a state machine (`Model/Session`: entry with the titles added by `meta`, recorded errors); a simulation between the object before and after any calls. `Props/SessionOrder`: the order of the calls does not matter. `Props/Unchanged`: what the calls change in the entry (C16). `Model/SessionLeft`, `Props/SessionLeft`: the object after calls that raise exceptions.

## Comparison with recorded results

The code is not run here, but its tests contain inputs with the results expected of them. `tools/conformance.py` reads
`tests/test_exfor_reaction.py` and `tests/test_exfor_fields.py` as syntax trees and writes `Conformance/Recorded`, in which the model is
evaluated on these inputs: 41 texts of particles, processes and reactions and 69 texts of fields, all equal to what the tests expect. These
are tests of the model, not proofs of properties. Not included: tests of attributes.
`tools/conformance_entries.py` does the same for `tests/test_exfor_entry.py`, `tests/test_exfor_dataset.py`, `tests/test_exfor_full_integration.py` and part of `tests/test_exfor_manager.py`,
whose inputs are whole entry files (twelve of them): `Conformance/Entries` evaluates the model
from the lines of the files to sections, metadata, datasets, simplified datasets, the appended and sorted dataset, their texts and CSV files, with exact
decimals as numbers. All 55 results equal those that the tests expect.
`tools/conformance_index.py` adds the queries of `tests/test_exfor_manager.py`: it reads the 5259 different rows of the table in `tests/data/index.tbl`
byte by byte, and `Conformance/Index` evaluates `query` on them. All 6 results equal those that the tests expect. (209 of these rows have an author whom
no search finds, C123.)
An early draft of the first of these tools evaluated statements of two test files (fields and manager) with stand-in classes instead of
reading them as text only; the draft and its output were discarded and none of it is part of this repository.

## Wrong programs

`seeded/LOG.jsonl` records edits of the model, made in a scratch copy, that imitate realistic bugs, with
the theorems that failed and those that were tightened afterwards.

## Trusted base

Lean's kernel; the axioms `propext`, `Classical.choice`, `Quot.sound` (no theorem depends on
any other); and the faithfulness of `Model/` and `Py/` to the Python
source, which is by inspection: the code is not run here.
