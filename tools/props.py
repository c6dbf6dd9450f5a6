# Source of /verif/properties.jsonl (run: python3 tools/props.py > properties.jsonl)
import json
P = []
def p(title, statement, quantifier, why, anchors):
    P.append(dict(id="C%02d" % (len(P)+1), title=title, statement=statement, quantifier=quantifier,
                  why_tests_cant=why, anchors=anchors))
S='x4i3/exfor_section.py'; E='x4i3/exfor_entry.py'; D='x4i3/exfor_dataset.py'; U='x4i3/exfor_utilities.py'
C='x4i3/exfor_column_parsing.py'; F='x4i3/exfor_field.py'; M='x4i3/exfor_manager.py'; SE='x4i3/exfor_subentry.py'
PA='x4i3/exfor_particle.py'; R='x4i3/exfor_reactions.py'; RF='x4i3/exfor_reference.py'; I='x4i3/__init__.py'; DI='x4i3/exfor_dicts.py'

p("Every table cell is read from its own 11-column field",
  "When a DATA or COMMON section whose physical lines have at most 66 columns is parsed, the label, unit and value in logical row i, column j are exactly the (stripped) 11-character field number j mod 6 of the physical line that carries columns 6*(j div 6).. of that logical row; no cell is shifted, dropped, or taken from a neighbour.",
  "all sections, all numbers of columns and rows (hence all numbers of physical lines per row), all contents", 
  "depends on the number of columns, rows and continuation lines; tests check a handful of tables", [S+':X4DataSection.__init__'])
p("A parsed table is rectangular",
  "If constructing a data section succeeds then labels and units have exactly numcols entries, raw_data and data have exactly numrows rows (none if numrows is negative), and every row has exactly numcols entries.",
  "all section texts for which the constructor returns", "must hold for every accepted input, including inconsistent headers", [S+':X4DataSection.__init__'])
p("Row-count conventions are reconciled exactly",
  "A data section with at least one column and LPR lines per row is accepted only if its line count is 2+(n+2)*LPR, 2+n*LPR or 2+n for the announced n; the resulting number of rows is then n, n-2 or n//LPR-2 respectively (first match wins), and in every other case IndexError is raised.",
  "all announced column/row counts and all section lengths", "ranges over all pairs of counts and lengths", [S+':X4DataSection.__init__'])
p("repr of a data section re-parses to the same section",
  "For every data section, parsing the lines of repr(section) yields a section with the same tag, labels, units, raw cell text, values and pointers.",
  "all parsed sections, any number of columns and rows", "round-trip over an unbounded input space", [S+':X4DataSection.__repr__', S+':X4DataSection.__init__'])
p("Columns past 66 (sequence numbers) never influence the table",
  "Text past column 66 of a physical line does not influence any label, unit or value of the section.",
  "all sections and all trailing text on any physical line", "two-run (non-interference) property over all inputs", [S+':X4DataSection.__init__'])
p("Pointer map lists exactly the columns carrying each pointer",
  "After parsing a data section, pointers[p] is the list, in order, of exactly those column indices whose 11-character label ends in p, and p is a key iff such a column exists.",
  "all sections", "quantifies over all label rows", [S+':X4DataSection.__init__'])
p("FORTRAN numbers are decoded to the value they denote",
  "parseFORTRANNumber returns None exactly on blank fields; agrees with float() wherever float() accepts the string; decodes an E-less FORTRAN number <mantissa><sign><1 or 2 digits> as mantissa*10^(signed exponent); rejects an E-less number with three or more exponent digits; ignores blanks inside a number that carries an explicit E; and the only exception it ever raises is BrokenNumberError carrying the original string.",
  "all strings", "input space of all strings / all mantissas and exponents", [U+':parseFORTRANNumber'])
p("A raw request is cut into exactly its entries",
  "chunkifyX4Request decomposes the request uniquely as junk/entry/junk/.../tail where each returned chunk starts with an ENTRY line, ends with the first following ENDENTRY line, junk contains no ENTRY line, and the tail contains no complete entry; chunks are returned in order and unmodified.",
  "all lists of lines", "any interleaving of headers, terminators and junk", [U+':chunkifyX4Request'])
p("Entries are cut into exactly their subentries and subentries into exactly their sections",
  "X4Entry.chunkify and X4SubEntry.chunkify decompose their input uniquely in the same way, for SUBENT..ENDSUBENT and BIB|DATA|COMMON..END*; re-chunking the concatenated chunks returns the same chunks.",
  "all lists of lines", "any interleaving of headers, terminators and junk", [E+':X4Entry.chunkify', SE+':X4SubEntry.chunkify'])
p("Reading an entry file is lossless and respects the requested subentries",
  "For every entry file made of an ENTRY line, subentries (SUBENT line, body, ENDSUBENT line), NOSUBENT lines and an ENDENTRY line, x4EntryFactory(rawEntry=True) returns the texts of precisely the subentries whose accession number is in subentsList (all of them when it is None), in file order, each equal byte for byte to its lines.",
  "all such files, any number and size of subentries, any subentsList", "any number of subentries/lines and any filter", [E+':x4EntryFactory'])
p("Entry numbers are validated before any file is touched",
  "x4EntryFactory and x4DictionaryEntryFactory raise ValueError for every entry number that does not have exactly 5 characters, and do not read the database in that case.",
  "all strings, all file systems", "all strings and all database contents", [E+':x4EntryFactory', E+':x4DictionaryEntryFactory'])
p("All spellings of a subentry index are equivalent",
  "entry[i] for an int 0<=i<=999, its decimal string, its zero-padded string, and the full 8-character accession number all give the same result (value or KeyError); every string of 4..7 or more than 8 characters raises KeyError.",
  "all entries, all indices", "all entries and all spellings", [E+':X4Entry.__getitem__'])
p("An entry is keyed by the accession numbers of its subentries",
  "When X4Entry(raw) succeeds, accnum is the 5-character entry number of the first subentry, the keys are exactly the 8-column accession fields of the given subentries, and each key maps to the last subentry with that number; a raw entry with no usable 5-character number raises KeyError.",
  "all raw entries", "all lists of subentry texts", [E+':X4Entry.__init__', E+':extractX4EntryIndex', SE+':extractX4SubEntryIndex'])
p("repr of an entry or subentry can be parsed back",
  "The text returned by repr(entry) / repr(subentry) is suitable for parsing with x4i: parsing it again yields the same accession numbers.",
  "all entries and subentries", "round-trip over all inputs", [E+':X4Entry.__repr__', SE+':X4SubEntry.__repr__', SE+':extractX4SubEntryIndex', E+':extractX4EntryIndex'])
p("Deleted entries are recognised",
  "entry.deleted() is True for every entry whose HISTORY field contains the text ENTRY DELETED (and getDataSets returns an empty mapping for it), and False otherwise.",
  "all entries", "all HISTORY texts", [E+':X4Entry.deleted', F+':X4PlainField'])
p("Reading metadata does not change the entry",
  "meta(), getDataSets() and getSimplifiedDataSets() do not change the observable state of the entry: str/repr/lookup of any of its sections give the same result before and after, in any order of calls.",
  "all entries and all call histories", "history property over call sequences", [S+':X4BibMetaData.__init__', E+':X4Entry.getDataSets'])
p("Exactly one dataset per data-carrying subentry and reaction pointer",
  "getDataSets returns a mapping whose keys are (entry, subentry, pointer) triples, one for every subentry with a DATA section and every pointer of the main or the subentry's own REACTION field, except those for which an error was recorded in entry.errors; the subentry's own reaction replaces the main one for the same pointer.",
  "all entries", "all combinations of main/sub reactions and pointers", [E+':X4Entry.getDataSets'])
p("Simplification never loses a dataset",
  "getSimplifiedDataSets returns the same keys as getDataSets; each value is either the simplified dataset or, when simplification raised one of the handled exceptions, the unsimplified dataset together with a message in entry.errors under that key; handled exceptions never escape.",
  "all entries, both values of makeAllColumns", "all datasets and failure combinations", [E+':X4Entry.getSimplifiedDataSets'])
p("Dataset rows line up with their labels",
  "Building a dataset from a DATA section and two optional one-row COMMON sections without pointers gives labels = labels of the COMMON sections followed by the selected DATA labels, units likewise, and each row = the COMMON values followed by the selected values of the corresponding DATA row, in the same order.",
  "all DATA sections (any pointers), all COMMON sections, all pointers", "all shapes and pointer patterns", [D+':X4DataSet.setData'])
p("Pointer selection keeps exactly the right columns",
  "A DATA column is kept in the dataset for pointer p iff its label carries no pointer or carries pointer p; this also holds for columns of COMMON sections, whose values stay under their own labels.",
  "all DATA and COMMON sections, all pointers", "all pointer patterns", [D+':X4DataSet.setData'])
p("COMMON sections with several rows",
  "When a COMMON section has k != 1 rows, dataset row i takes the COMMON row i for i<k; no value is invented for the remaining rows.",
  "all k, all numbers of data rows", "all row counts", [D+':X4DataSet.setData'])
p("Metadata precedence",
  "Each bibliographic attribute of a dataset is the one given by the last metadata record (subentry over main) that has a value other than None/'None', and the default otherwise.",
  "all lists of metadata records", "all combinations of present/absent attributes", [D+':X4DataSet.__init__'])
p("Simplified datasets are rectangular and complete",
  "When getSimplified succeeds on a dataset not simplified before, the result has one row per original row, labels are the requested columns followed by d(column) for the columns with uncertainties (for all when makeAllColumns), and units and every row have exactly as many entries as labels.",
  "all rectangular datasets, all parser maps / column lists", "all shapes", [D+':X4DataSet.getSimplified'])
p("Simplifying never modifies the dataset it is called on",
  "After r = d.getSimplified(...), no later mutation of r through the dataset API (sort, append) changes d.",
  "all datasets, all later histories of operations on r", "aliasing property over operation histories", [D+':X4DataSet.getSimplified', D+':X4DataSet.sort', D+':X4DataSet.append'])
p("Missing values and uncertainties are reported, not invented",
  "getSimplified raises NoValuesGivenError iff some requested column has no value in any row; with failIfMissingErrors (and not makeAllColumns) it raises NoUncertaintyGivenError iff some column has no uncertainty; with makeAllColumns the missing uncertainties are 0.0 in every row. (All this for datasets whose columns are read without another failure, such as an unknown unit.)",
  "all datasets and flags", "all datasets/flag combinations", [D+':X4DataSet.getSimplified'])
p("Unit conversion lands in canonical units and is idempotent",
  "For every unit string, converting to canonical units a second time changes neither unit nor value; each known unit is mapped to the documented canonical unit with the documented factor, and unknown units are left alone.",
  "all strings", "all strings", [C+':X4ColumnParser.getConversion'])
p("Reported uncertainties are never negative",
  "Every numeric entry of an uncertainty column returned by any column-pair parser is >= 0.",
  "all datasets, all parsers", "all numeric contents", [C+':absOrNone', C+':X4IndependentColumnPair.getError', C+':X4HighLowColumnPair.getError', C+':X4HighMidLowColumnPair.getError', C+':X4AddErrorBarsColumnPair.getError', C+':X4ConstantPercentColumnPair.getError'])
p("Percent uncertainties are converted to absolute ones",
  "If the uncertainty column is in PER-CENT, the reported uncertainty of a row is |value * percent / 100| in the unit of the value column, and None when either is missing; otherwise it is |uncertainty| converted by its own unit.",
  "all datasets", "all numeric contents", [C+':X4IndependentColumnPair.getError'])
p("Bin limits give midpoint and half-width",
  "For columns given as MIN and MAX, a row with both limits reports value=(min+max)/2 and uncertainty=|max-min|/2, so that value-uncertainty and value+uncertainty are again the two limits; rows with a missing limit report no uncertainty.",
  "all datasets", "all numeric contents", [C+':X4HighLowColumnPair'])
p("Asymmetric errors give the centre and half-width of the quoted interval",
  "For value x with -err a and +err b the reported value and uncertainty satisfy value-unc = x-a and value+unc = x+b whenever a+b>=0.",
  "all datasets", "all numeric contents", [C+':X4HighMidLowColumnPair'])
p("Systematic and statistical errors are added in quadrature in consistent units",
  "With both error columns absolute, or both in percent, the reported uncertainty u satisfies u^2 = s^2 + t^2 for the absolute errors s,t of that row; when exactly one of the two is in percent only that one is scaled by the value.",
  "all datasets", "all unit combinations and contents", [C+':X4AddErrorBarsColumnPair.getError'])
p("Column condensation takes the first parser that has a value",
  "Condensing the columns of a parser list row by row gives, for each position, the first non-None entry in parser order (None if there is none), independent of how the reduction is bracketed.",
  "all lists of equally long columns", "all lists", [C+':condenseColumn'])
p("Cross sections given in barn*sqrt(eV) can be simplified",
  "A cross-section dataset with a DATA column in B*RT-EV and an energy column simplifies to barns by dividing by sqrt(E).",
  "all datasets with such a column", "all datasets", [C+':X4BarnsSqrtEColumnPair', C+':energyParserList'])
p("A vanishing cosine uncertainty gives a vanishing angle uncertainty",
  "For a COS column with a COS-ERR column, the reported angle uncertainty is 0 when the quoted cosine uncertainty is 0.",
  "all datasets with cosine columns", "all numeric contents", [C+':X4AngleColumnParser.getColumn', C+':angleParserList'])
p("Dataset class is determined by the quantity",
  "X4DataSetFactory maps every quantity list to the documented dataset class: the listed exact SIG combinations to cross-section / spectrum-averaged classes, otherwise RI, POL/DA, DA, NU, DE in that order of priority, otherwise the generic class; coupled reactions are accepted iff all reactions in the expression have the same quantity.",
  "all quantity lists and coupled expressions", "all lists", [D+':X4DataSetFactory'])
p("Appending datasets neither loses nor duplicates rows",
  "append adds exactly the other dataset's rows after the existing ones when labels, units and reaction agree, copies everything when the receiver is empty, and otherwise leaves the receiver unchanged; hence a sequence of appends yields the concatenation of the rows of the compatible datasets.",
  "all datasets and all append sequences", "histories of appends", [D+':X4DataSet.append'])
p("Plain fields survive printing",
  "For every raw field, parsing the lines of repr(field) gives a field with the same tag, the same pointers and the same text lines under each pointer.",
  "all raw fields", "round-trip over all inputs", [F+':X4PlainField.__init__', F+':X4PlainField.__repr__'])
p("Printing a canonical field reproduces it exactly",
  "If a raw field is in canonical form (tag on the first line only, pointers strictly increasing and given once each, no trailing blanks, at most 66 columns) then repr(field) is the original text.",
  "all canonical fields", "round-trip over all inputs", [F+':X4PlainField.__repr__'])
p("Every field line is stored once under the pointer in force",
  "The text of line k of a field is stored under the last pointer character seen at or before line k (blank if none); the total number of stored lines equals the number of raw lines and order is preserved within each pointer.",
  "all raw fields", "all inputs", [F+':X4PlainField.__init__', F+':X4PlainField.total_len'])
p("BIB sections are cut into fields without losing lines",
  "Concatenating the fields found in a BIB section gives back all its lines other than the BIB/ENDBIB lines, in order; every field after the first starts with a non-blank tag and contains no other tag line. The section's keys are the tags in columns 0 to 9, and looking up a tag gives the last field with it.",
  "all sections", "all inputs", [S+':X4BibSection.chunkify'])
p("Printed BIB counters are consistent",
  "repr of a BIB section announces as many fields as the section has and as many lines as it prints between header and trailer.",
  "all BIB sections with distinct tags", "all inputs", [S+':X4BibSection.__repr__', S+':X4BibSection.totalLen'])
p("Multi-line MONITOR entries stay together",
  "When a MONITOR reaction in parentheses continues on the following line, the two lines form one monitor entry; text lines are never split into characters and no line is lost.",
  "all MONITOR fields", "all inputs", [F+':X4MonitorField.__init__'])
p("Publication years are four digits",
  "parseX4Year maps every date string of 2, 4, 6 or 8 decimal digits 0-9 to a 4-character year starting with 19 or 20, keeps an explicit 19xx/20xx year, and raises TypeError for any string with a non-digit other than ')'.",
  "all strings", "all strings", [RF+':parseX4Year'])
p("Query results are grouped, sorted and duplicate-free",
  "For every index table and criteria, query returns a mapping whose keys are the 5-character prefixes of the matching subentries; each list starts with the documentation subentry <key>001, continues with precisely the other matching subentries of that entry in increasing order, and contains no duplicates.",
  "all index tables, all criteria", "all databases", [M+':X4DBManagerPlainFS.query', U+':unique'])
p("A query means the conjunction of its criteria",
  "The subentries found by query are exactly the ones having an index row that satisfies all given criteria simultaneously (author capitalised, target/reaction/projectile/quantity upper-cased, CS meaning SIG, * in reaction matching any text); adding a criterion can only shrink the result. User-supplied text never changes the meaning of the condition.",
  "all index tables, all argument strings", "all databases and all argument strings (including quotes)", [M+':X4DBManagerPlainFS.query', M+':X4DBManager.run_sql_query'])
p("Unsupported criteria are ignored, empty queries return nothing",
  "product, MF, MT, C, S and I have no influence on the result of query; a query without any supported criterion returns an empty mapping without consulting the index.",
  "all arguments and databases", "all argument combinations", [M+':X4DBManagerPlainFS.query'])
p("retrieve returns the subentries that query names",
  "retrieve has the same keys as query for the same criteria, and its raw value for an entry is exactly the list of subentry texts of the entry file whose accession number query listed (so the documentation subentry is always included when the file has it).",
  "all databases and criteria", "all databases", [M+':X4DBManagerPlainFS.retrieve', E+':x4EntryFactory'])
p("Manager indexing and membership",
  "db[k] is retrieve by entry for 5-character keys and by subentry for 8-character keys (ints being converted), KeyError for all other lengths; k in db tells whether the corresponding query is non-empty.",
  "all keys and databases", "all keys", [M+':X4DBManager.__getitem__', M+':X4DBManager.__contains__', M+':X4DBManager.__fixkey__'])
p("The memory-cached manager agrees with the file-system manager",
  "For every database and criteria the memory-cached manager's retrieve returns the same result as the plain file-system manager's.",
  "all databases and criteria", "two implementations over all databases", [M+':X4DBManagerMemoryCached.retrieve', E+':x4DictionaryEntryFactory', I+':DataBaseCache'])
p("The database cache behaves like a snapshot of the db folder",
  "Item access on the cache returns the lines of the file at the time of first successful access, for every later access in any order; the folder is scanned at most once; a failed scan leaves the cache usable for a retry; missing files raise KeyError.",
  "all file systems, all access histories", "history/state-machine property", [I+':DataBaseCache'])
p("An interrupted installation is never mistaken for a complete one",
  "At every crash point of the download-and-unpack procedure, if all the files checked for presence exist then either nothing has been changed yet or the database on disk is completely unpacked; provided that index.tbl is not a directory, the archive does not itself contain the tag file, and a cut-off transfer is noticed (by the announced size, or by tarfile).",
  "all crash points, all archives, all initial states", "crash-point quantification", [I+':_download_and_unpack_file', I+':check_if_exists'])
p("A failed download leaves the previous database in place",
  "If the download fails or is incomplete, the previously installed database is still complete afterwards.",
  "all failure points", "fault injection at every point", [I+':_download_and_unpack_file'])
p("Residual nuclei conserve charge and mass",
  "Whenever a process's residual is computed (or matched) rather than left undefined, the charges and mass numbers of target plus projectile equal those of the remaining products plus residual; elastic/inelastic channels have the target as residual.",
  "all targets, projectiles and product lists", "all reactions", [R+':X4Process.setResidual'])
p("Every listed particle code can be constructed with its charge and mass",
  "For every particle code in the charge/mass tables, X4Particle(code) has that code's charge and mass number.",
  "the whole table, any letter case", "finite table but with parser interaction", [PA+':X4Particle.__init__', PA+':x4ZMap', PA+':x4AMap'])
p("Isomer arithmetic is unfolded into the equivalent combination",
  "Repacking a reaction whose residual carries isomer math produces the parenthesised combination with one reaction per isomer state, in order, separated by the same operators, each reaction being the original with the residual's isomer replaced.",
  "all reactions with isomer math", "unbounded number of states", [R+':X4ReactionIsomerCombination.repack'])
p("Dictionary names and numbers correspond one to one",
  "getDictionaryName and getDictionaryIndex are inverse to each other on the listed dictionaries and return None elsewhere; both spellings give the same file name.",
  "all ints and strings", "all keys", [DI+':X4DictionaryServer'])
p("Dictionary files are decoded field by field",
  "For every dictionary file made of fixed-width records with distinct non-blank keys, getDictionary maps each key to the list of its remaining fields, and one record's parsing does not influence another's.",
  "all dictionary files", "all files", [DI+':getDictionary'])
p("Element symbols and charges correspond one to one",
  "endl_SymbolZ and endl_ZSymbol are inverse to each other for 0<=Z<=118 and give None elsewhere.",
  "all integers and strings", "whole domain of ints/strings", ['x4i3/endl_Z.py:endl_ZSymbol','x4i3/endl_Z.py:endl_SymbolZ'])
p("Natural abundances are consistent",
  "getAbundance is (0,0) exactly for isotopes not in the table; for every element with an entry the abundances add up to 100 percent within 0.1 percent, and every abundance lies in (0,100].",
  "all (Z,A)", "whole table and all absent keys", ['x4i3/abundance.py:getAbundance'])
p("unique keeps first occurrences in order",
  "unique(l) has no duplicates, the same members as l, is a subsequence of l, keeps each element at its first occurrence, and is idempotent.",
  "all lists", "all lists", [U+':unique'])
p("Tolerance comparison is a symmetric, reflexive relation that implies closeness",
  "withinXPercent is symmetric and reflexive, and when it returns True for values that are not below the absolute tolerance their difference is at most the given percentage of their mean magnitude; allWithinXPercent is its pointwise lifting and False for different lengths.",
  "all numbers and lists", "all numeric inputs", [U+':withinXPercent', U+':allWithinXPercent'])
p("Tables built from dictionaries are rectangular and faithful",
  "list_of_dicts_to_table returns rows with exactly one entry per column, entry (i,k) being the i-th dictionary's value for column k (None if absent); without explicit columns the columns are the distinct keys in order of first appearance.",
  "all lists of dictionaries", "all inputs", [U+':list_of_dicts_to_table'])
p("Reference fields are cut into their references",
  "Each parenthesised reference in a REFERENCE field, together with its continuation lines, becomes one reference string, in order and without losing text.",
  "all REFERENCE fields", "all inputs", [F+':X4ReferenceField.__init__'])
p("A reaction text is read as what it is written from",
  "For every reaction written from a target, projectile, products, optional residual (nuclei with isomer states, compounds, particles) and descriptors, the grammar reads the text back as exactly these parts, and the reaction object constructed from it has the target's and projectile's charge and mass number and the written quantity. (No product that begins like an isomer letter may follow a nucleus, and no 'B' may precede a '+'; there the text is ambiguous.)",
  "all well-formed reaction texts, any number of products, isomers and descriptors", "unbounded texts; ambiguous grammar alternatives", ['x4i3/exfor_grammers.py:x4reaction', R+':X4Reaction.__init__'])
p("A REACTION field is read as its reactions, operators and free text",
  "For every combination of reactions with operators and nested parentheses followed by free text, the field's measurement is the combination with the same reactions, operators and parentheses in the same order, and the rest of the line is returned as free text; a single reaction gives that reaction.",
  "all nested combinations, any depth and length, any free text that does not begin with an operator", "unbounded nesting", ['x4i3/exfor_grammers.py:x4reactionfield', F+':X4ReactionField.getMeasurementType', R+':X4ReactionCombination'])
p("A reference is read as its type, name, details and date",
  "A reference in parentheses, with its items separated by commas, blanks anywhere between the words and parentheses within items, gives exactly these items without blanks, the first being the type, the second the name, the last the date (with the year of the date); of a reference with several names, ((A)=(B)=...), all names are read in order. The printed name is that of the dictionary for the type, or the type and the code if the dictionary has no entry.",
  "all reference texts, any number of items and of further names", "unbounded texts; nested-expression grammar", [F+':X4ReferenceField', 'x4i3/exfor_reference.py:X4ReferenceCode', 'x4i3/exfor_grammers.py:x4refcode'])
p("Every author is listed once, in order, as written up to case and blanks",
  "The author list of an AUTHOR field is the list of the names between the commas, each with its words separated by one blank and with normalised case, whatever follows the list and wherever the lines are broken.",
  "all AUTHOR fields", "all inputs, including apostrophes in names", [F+':X4AuthorField.__init__', 'x4i3/exfor_grammers.py:x4authorfield', 'x4i3/exfor_grammers.py:x4authorlist'])
p("Every institute is listed once, with its dictionary name and comment",
  "The institutes of an INSTITUTE field are the codes given in it, in order, each with the name that dictionary 3 has for it (or the code itself) and with the words following it as comment.",
  "all INSTITUTE fields and dictionaries", "all inputs", [F+':X4InstituteField.__init__', 'x4i3/exfor_grammers.py:x4textfield'])
p("Every reference type has a publication type",
  "A REFERENCE field whose first reference is of a type listed in dictionary 4 gets a publication type.",
  "all types in the dictionary", "whole dictionary; two tables maintained apart", [F+':pubTypeMap', F+':X4ReferenceField.__init__', 'x4i3/dicts/dict04.txt'])
p("The main reference is that of the first reference that can be read",
  "The attributes of a REFERENCE field (type, name, details, date, year, publication type) are those of the first reference in the field that can be read, as the comment in the code says, whatever the other references are.",
  "all REFERENCE fields, any number of pointers and references", "all combinations of readable and unreadable references", [F+':X4ReferenceField.__init__'])
p("Family names",
  "The family name of an author is what follows the initials, and is not empty.",
  "all author names", "all inputs", [F+':X4AuthorField.__init__'])
p("Legends and citations name the authors, the year and the source",
  "The legend of a BIB section shows the year of its main reference and its authors (all of up to two, otherwise the first two and 'et al.'); its citation names the same authors, all references, the subentry and the date.",
  "all BIB sections", "all inputs", [S+':X4BibMetaData.legend', S+':X4BibMetaData.citation'])
p("A reference printed in EXFOR form reads back",
  "The text that repr gives for a reference code is read as the same reference code.",
  "all reference codes", "all inputs", ['x4i3/exfor_reference.py:X4ReferenceCode.__repr__', 'x4i3/exfor_reference.py:X4ReferenceCode.__init__'])
p("The metadata of an entry are those of its first subentry, and announce deletion",
  "Legend, header and citation of an entry are those of the BIB section of its first subentry, the citation ending in the number of that subentry and the date of the reference; for a deleted entry they say that it was deleted instead. The metadata also list the accession numbers of all subentries of the entry, each once, in increasing order.",
  "all entries", "all inputs", [E+':X4EntryMetaData'])
p("Everything but the rows of a printed dataset is commented out",
  "In the text of a dataset the lines before the rows (header, monitor, frame, labels, units) begin with '#', and there is one further line for each row, in order, and a blank line.",
  "all datasets whose texts contain no line ends", "any number of rows and columns", [D+':X4DataSet.__str__', D+':X4DataSet.strHeader', S+':X4BibMetaData.xmgraceHeader'])
p("The rows of a printed dataset read back cell by cell",
  "Splitting the uncommented lines of the text of a dataset at blanks gives the texts of its cells.",
  "all datasets", "all values, including those with many digits", [D+':X4DataSet.__str__'])
p("The reported frame is that of the angles or outgoing energies",
  "An angular or energy distribution is reported in the center of mass exactly if its angle or outgoing energy column is given in the center of mass.",
  "all datasets", "all combinations of column labels", [D+':X4AngularDistributionDataSet.__init__', D+':X4EnergyDistributionDataSet.__init__'])
p("CSV files read back",
  "The CSV file written for a dataset or a DATA section reads back as the labels, the units and the rows, cell by cell, whatever characters they contain; missing values are empty fields.",
  "all datasets and sections", "all texts", [D+':X4DataSet.csv', S+':X4DataSection.csv'])
p("Isomeric states are read as written",
  "A nucleus with a state -G, -M, -M1, -M2, ..., -T gives an object for that nucleus with the level 0, 1, the number written, and no level; several states connected by operators are never read as one state.",
  "all nuclei and states", "all numbers and combinations of states", [PA+':X4Isomer.__init__', R+':X4Process.setParticleType'])
p("Every reaction of a combination is listed",
  "The list of reactions of a combination, and of the field that contains it, has every reaction of the written combination in order, isomer arithmetic being replaced by the reactions for the single isomers; a combination has a quantity exactly if one of its reactions has it.",
  "all combinations", "unbounded nesting", [R+':X4ReactionCombination.getReactionList', R+':X4ReactionCombination.has_quantity', F+':X4ReactionField.getX4ReactionList'])
p("A combination is printed as it is written",
  "The text of a combination of reactions is the written combination with each reaction replaced by its own text in parentheses, operators and parentheses being kept in order.",
  "all combinations", "unbounded nesting", [R+':X4ReactionCombination.print_gizmo'])
p("The type of a reaction is the text of its quantity code",
  "The type of a reaction is the text that the dictionary of quantities gives for the descriptors of the reaction as they are written.",
  "all reactions and dictionaries", "all descriptors", [R+':X4Reaction.getReactionType'])
p("Several particles are printed with their number",
  "A product such as 2N is printed with its number, both in the readable and in the EXFOR form.",
  "all products with a number of at least 2", "all numbers and particles", [PA+':X4Particle.prettyStyle', PA+':X4Particle.exforStyle'])
p("A reaction printed in EXFOR form reads back",
  "The text that repr gives for a reaction that was read from a text can be read, and gives the same reaction: target, projectile, products, residual, process type and quantity.",
  "all reactions read from well-formed texts", "all targets, products and residuals, including those that were computed", [R+':X4Reaction.__repr__', R+':X4Process.__repr__', PA+':X4Nucleus.exforStyle'])
p("An entry file in EXFOR format is read as what is written in it",
  "For every entry written as a file in EXFOR format (frames with counters, fields with continuation lines and pointers, tables in lines of six fields of eleven characters), the object read from it has exactly the requested subentries, with the fields, texts, labels, units and numbers that are written; it is read from the file with its number, and if no subentry is requested that it contains there is no object.",
  "all entries of any number of subentries, fields, lines, columns and rows, and all requests", "unbounded documents; the whole reading chain at once", [E+':x4EntryFactory', E+':X4Entry.__init__', SE+':X4SubEntry.__init__', S+':X4DataSection', S+':X4BibSection'])
p("The datasets of an entry are those written in its file",
  "getDataSets returns for every entry that can be read; for every subentry with a DATA table and every reaction written in its REACTION field it gives the dataset with the columns of that pointer, preceded by those of the COMMON tables of the first and of the same subentry, one row for each line of the table, and the written reaction.",
  "all entries written in EXFOR format", "unbounded documents; the whole chain from text to datasets", [E+':X4Entry.getDataSets', D+':X4DataSet.setData', D+':X4DataSetFactory', F+':X4ReactionField'])
p("Retrieval gives the objects and datasets that are written in the files of the database",
  "For a database directory whose files are written in EXFOR format, with an index that names subentries of these files, retrieve gives one object for each entry that has a subentry meeting all criteria, in increasing order; the object holds the first subentry and the subentries meeting the criteria as they are written, and its datasets are those written in the file.",
  "all databases, indices and criteria", "unbounded databases; query, file access, parsing and datasets composed", [M+':X4DBManagerPlainFS.query', M+':X4DBManagerPlainFS.retrieve', E+':x4EntryFactory', E+':X4Entry.getDataSets'])
p("A simplified dataset gives the written energies and data in MeV, barns and degrees",
  "For a dataset whose table gives energies (a column of values with errors or resolutions, lower and upper limits, or both), measured values (with a total error or partial ones, or lower and upper limits; energies and values may have different errors below and above) and, for distributions, angles or outgoing energies, getSimplified gives a table with exactly these quantities in MeV, barns, particles per fission, barns per steradian, 1/MeV and degrees, row by row, followed by their uncertainties in the same units (percents of the value, half of full widths, partial errors added in quadrature); and so for the datasets retrieved from the files of a database.",
  "all tables with such columns, any units of the tables of the code, any rows, gaps included", "all values, column orders and combinations of headings; query, file, dataset and unit conversion composed",
  [D+':X4DataSet.getSimplified', D+':X4CrossSectionDataSet', D+':X4NubarDataSet', D+':X4AngularDistributionDataSet', D+':X4EnergyDistributionDataSet', C+':csDataParserList', C+':incidentEnergyParserList', C+':angleParserList'])
p("A nucleus or isomer made from a text is the written one, and its printed forms identify it",
  "X4Nucleus and X4Isomer made from a text such as 94-PU-240-M2 have the charge, symbol, mass number and state that are written; the EXFOR form that is printed can be read and gives the same object; the ENDL name has three digits each for charge and mass number, followed by the state.",
  "all well-formed texts", "all symbols, numbers and states", [PA+':X4Nucleus.__init__', PA+':X4Isomer.__init__', PA+':X4Nucleus.exforStyle', PA+':X4Isomer.exforStyle', PA+':X4Nucleus.endlZAStyle', PA+':X4Isomer.endlZAStyle', PA+':X4ParticleBase.asList'])
p("Printed reaction and monitor fields show every measurement with its text",
  "A REACTION field is printed as one item for each pointer, in increasing order, with the measurement and its free text; a MONITOR field as one item for each pointer, in the order of reading, with all its monitors, from which the free text and the heading of every monitor can be read back.",
  "all REACTION and MONITOR fields", "any number of pointers, monitors and lines; all texts", [F+':X4ReactionField.__str__', F+':X4MonitorField.__str__'])
p("A simplified dataset of spectrum averages gives the written temperatures in MeV",
  "For spectrum-averaged cross sections whose table gives the temperature of the spectrum (as KT in energy units or TEMP in Kelvin, with errors or resolutions, limits, or different errors below and above), or else an energy, getSimplified gives these in MeV and the data in barns, row by row, with their uncertainties; where both a temperature and an energy are given the temperature is taken.",
  "all tables with such columns, any units of the tables of the code, any rows", "all values, column orders and combinations of headings",
  [D+':X4DataSet.getSimplified', D+':X4SpectrumAveCrossSectionDataSet', C+':spectrumArgumentParserList'])
p("Unit conversion keeps the physical quantity",
  "For every unit that the conversion table knows, the converted number in the converted unit is the same physical quantity (energy, area, angle, ...) as the number in the written unit, with the units taken at their SI values.",
  "all units of the conversion table and all real values", "all values; the sizes of the units are taken from outside the code", [C+':energyUnitConversionFactors', C+':X4ColumnParser.getConversion'])
p("Printed titles and free texts have exactly the written words",
  "The printed form of a title consists of the words written in the field in title case, and that of a free text of the words as they are written, line by line, pointer by pointer in increasing order.",
  "all TITLE and free text fields", "any number of lines and pointers; all texts", [F+':X4PlainField.__str__', F+':X4TitleField.__str__'])
p("Printed tables, subentries and entries show what was read, and read back",
  "The text that str gives for a DATA or COMMON section, a BIB section, a subentry or an entry shows every table and every field of every subentry, in the order of the file within a subentry and by increasing accession number; and reading the text gives the same object again.",
  "all sections, subentries and entries", "any number of rows, fields and subentries; all numbers", [S+':X4DataSection.__str__', S+':X4BibSection.__str__', SE+':X4SubEntry.__str__', E+':X4Entry.__str__'])
p("get-entry prints what is written in the database for the requested number",
  "The program get-entry lists the subentries of the requested entry; for a requested subentry it prints its raw text, its DATA table, and the documentation of the entry as they are written in the file of the database, with an error for a number that is malformed or absent.",
  "all databases and requests", "unbounded databases; index, file access, parsing and printing composed", ['examples/get-entry.py:process_args', M+':X4DBManagerPlainFS.retrieve', E+':x4EntryFactory'])
p("plotX4 plots the cross sections that are found",
  "The program plotX4 calls xmgrace with the simplified cross sections of the requested isotope and reaction whenever the database has any.",
  "all databases, isotopes and reactions", "unbounded databases", ['examples/plotX4.py:subents', E+':X4Entry.__init__'])
p("What cannot be read is reported by its own exception, and nothing else fails",
  "Reading an entry file fails exactly if a field or a number of a requested subentry cannot be read; the exception is that of the first such thing in the file: BrokenNumberError with the text of the cell, ReactionParsingError, InstituteParsingError or AuthorParsingError for a field. References that cannot be read do not make reading fail. A query fails if something in a subentry that it finds, or in the first subentry of its entry, cannot be read.",
  "all entries in EXFOR format, requests, databases and queries", "unbounded documents; which of several errors comes first", [E+':X4Entry.__init__', S+':X4BibSection', S+':X4DataSection', U+':parseFORTRANNumber', F+':X4ReactionField', F+':X4AuthorField', F+':X4InstituteField', F+':X4ReferenceField'])
p("A MONITOR field is read as the monitors written in it",
  "For every pointer of a MONITOR field, reading gives one monitor for each code that is written under this pointer, in the order of writing, with the column heading and the reaction or combination of the code, and the free text after it; a code that cannot be read makes the field fail with ReactionParsingError.",
  "all MONITOR fields whose codes begin at the margin, on one line or broken into two", "any number of pointers, monitors and lines of free text; all reactions of the grammar", [F+':X4MonitorField.__init__'])
p("The equation of a REACTION field shows the written combination, and the reaction list fills in the schematic one",
  "getEquation of a REACTION field gives, for each pointer, the combination as written with its operators and parentheses, each reaction by its text or, schematically, by a name rxn 0, rxn 1, ... from left to right; putting the reactions of getX4ReactionList in place of the names gives the written combination again.",
  "all REACTION fields and combinations of any nesting", "unbounded nesting and numbers of reactions", [F+':X4ReactionField.getEquation', F+':X4ReactionField.getX4ReactionList'])
p("A dataset gives the written cell, label and unit, and its repr lists them",
  "numrows and numcols are the numbers of rows and columns; ds[i,j], ds['LABELS',j] and ds['UNITS',j] give the value, heading and unit that are written there, with negative numbers counting from the end, and IndexError or KeyError otherwise; repr ends with a Python list literal of the labels, the units and all rows.",
  "all datasets, all integers as indices", "unbounded tables; all index pairs", [D+':X4DataSet.__getitem__', D+':X4DataSet.numcols', D+':X4DataSet.numrows', D+':X4DataSet.__repr__', D+':X4DataSet.reprHeader'])
p("The written residual is the residual of the reaction",
  "If a reaction text names a residual nucleus behind the parentheses, the residual of the reaction object is this nucleus in the state that is written, and the products are those inside the parentheses.",
  "all well-formed reaction texts with a residual nucleus", "all targets, projectiles, numbers of products and isomeric states", [R+':X4Process.setResidual', R+':X4Process.setProduct'])
p("The code of a reaction may be continued on further lines at parentheses and commas",
  "The lines of a field are put together with blanks. Blanks next to the parentheses and commas of a text do not change how it is read: it fails in the same way, or gives the same measurement and the same free text up to blanks. A code that is continued on further lines after or before a parenthesis or comma, with free text behind it, is read exactly as if it stood on one line.",
  "all texts without tabs, with any number of blanks inserted; all reactions and combinations of the grammar on any number of lines", "the grammar tries alternatives and takes the longest match, so a blank anywhere could change the outcome; unbounded texts", [F+':X4ReactionField.__init__', F+':X4SubField.__str__', F+':X4MonitorField.__init__', 'x4i3/exfor_grammers.py:x4reactionfield', 'x4i3/pyparsing3.py:Or'])

p("The dictionary server gives the contents of the files that are there",
  "A listed dictionary is read from the file with its number, whether it is asked for by number or by name; a missing file gives None and a key that is not listed raises TypeError. getAllDictionaries holds, under the name of every listed dictionary whose file is there, what this file contains, and nothing else; it fails exactly if a file that is there cannot be read, with the exception of the first such file.",
  "all directories of dictionary files, all keys", "all files and contents; which of several errors comes first", ['x4i3/exfor_dicts.py:X4DictionaryServer.getDictionary', 'x4i3/exfor_dicts.py:X4DictionaryServer.getAllDictionaries'])

p("The EXFOR form of BIB sections, subentries and entries keeps what was read",
  "The text repr gives for a BIB section, read again, gives the same section; the text repr gives for a subentry, read again, gives the same sections in the same order. The text of a subentry holds BIB, COMMON and DATA in this order; that of an entry holds every subentry once, by increasing accession number, and exists exactly if the text of every subentry does. (The accession number is C14, a single table is C04.)",
  "all BIB sections, subentries and entries that were read and can be printed", "all combinations of fields, pointers and tables; what the printed columns are read as", ['x4i3/exfor_section.py:X4BibSection.__repr__', 'x4i3/exfor_subentry.py:X4SubEntry.__repr__', 'x4i3/exfor_entry.py:X4Entry.__repr__', 'x4i3/exfor_field.py:X4PlainField.__repr__'])

p("The mean of two columns is taken row by row",
  "averageColumns of two columns of the same length gives, in every row, the mean of the two numbers, the only number if one is missing, and None if both are; heading and unit are kept.",
  "all pairs of columns of real numbers", "all lengths and all combinations of missing values", ['x4i3/exfor_column_parsing.py:averageColumns'])

p("The readable text of a reaction names its type and all its parts",
  "str of a reaction gives the reaction type, ' for ', and target(projectile,products)residual with readable names: nuclei as mass number and symbol with the isomeric state between them, natural elements with nat, compounds as in the dictionary, particles and channels by their names, several particles with their number; nothing that is written is lost, and different nuclei and states have different names.",
  "all well-formed reaction texts, all dictionaries", "all combinations of targets, projectiles, products, residuals and isomeric states; any number of products", [R+':X4Process.__str__', R+':X4Process.setProcessType', R+':X4Reaction.__str__', 'x4i3/exfor_particle.py:X4Particle.prettyStyle'])

p("The messages about datasets that could not be made name the subentry, the pointer and the cause",
  "After getDataSets, the errors of an entry hold exactly one message for each subentry with data and each pointer whose reaction (its own, or else that of the first subentry) is a combination of different quantities, ending with the readable text of this combination, or whose table is too short (IndexError). getSimplifiedDataSets adds, for each dataset that it cannot simplify, a message that begins with the class of the exception and names the missing column or the unreadable number; different causes give different messages. Recording messages does not change the datasets.",
  "all entries in EXFOR format and all reactions", "any number of subentries, pointers and datasets, all causes of failure", [E+':X4Entry.getDataSets', E+':X4Entry.getSimplifiedDataSets', D+':X4DataSetFactory', 'x4i3/exfor_exceptions.py:NoValuesGivenError'])

p("A text field is cut into a chunk for every code",
  "chunkifyX4TextField gives one chunk for each code in parentheses, in the order of writing, with the words of the code and those of the text behind it.",
  "all lists of codes with texts", "unbounded texts; the grammar tries several forms of a code", [F+':chunkifyX4TextField', 'x4i3/exfor_grammers.py:x4textfield'])

p("The pointer of a field is that of its first text",
  "extractX4FieldPointer gives the character in the pointer column of the first line of a field, None if it is blank, and the field that is read from these lines begins with the texts under this pointer.",
  "all fields", "any number of lines, all characters", [F+':extractX4FieldPointer', F+':X4PlainField.__init__'])

p("Printed tables can be read back by columns",
  "In every line that prettyprint_table prints, the cells of the row are found in columns of the given width, separated by one blank.",
  "all tables of texts and all widths", "any number of rows and columns, all texts", [U+':prettyprint_table'])

p("A manager reads the given index and directory, and the base class nothing",
  "A database manager uses the index file and the directory it is given, or the installed ones; other settings reach SQLite unchanged. Objects of the base class raise NotImplementedError for every query, and KeyError for numbers that are not of 5 or 8 characters. The tables of letters for the first digits of accession numbers are inverse to each other.",
  "all settings, criteria and keys", "all combinations of settings; the installed database is not part of the tests", [M+':X4DBManagerPlainFS.__init__', M+':X4DBManager.query', M+':X4DBManager.retrieve', M+':X4DBManager.__getitem__', M+':EntryLetterConversion'])

p("Floating-point arithmetic changes simplified datasets only by rounding",
  "With IEEE doubles instead of exact numbers, getDataSets gives the same datasets with every number rounded once, and getSimplified the same headings, units, attributes, missing entries and exceptions; every number of the result differs from the exact one by at most 1e-14 times the sum of its magnitude and twice the largest magnitude in its row (in converted units). Converted columns have a relative error of nine roundings at most. No uncertainty is negative.",
  "all datasets of the classes with a simplification, all tables, all roundings with a bounded relative error (no overflow and underflow)", "all numbers; an accumulation of errors or a cancellation shows only for special values", [C+':X4ColumnParser.getColumn', C+':X4HighLowColumnPair', C+':X4AddErrorBarsColumnPair', D+':X4DataSet.getSimplified', E+':X4Entry.getSimplifiedDataSets'])

p("Reading a code neither invents characters nor changes their order",
  "The names of authors are, apart from separators (white space, parentheses, commas) and the case of letters, the beginning of the text they were read from; the codes and comments of institutes and the parts of references consist of characters of the text in their order. The symbols and numbers of the particles of a reaction, its quantity and the free text (dashes and plus signs aside) follow each other as in the text, of which everything up to the end of a line is used; the same holds for all reactions and operators of a combination.",
  "all texts that can be read, all dictionaries", "all texts, also those that the format does not allow and that are read anyway", [F+':X4AuthorField', F+':X4InstituteField', F+':X4ReferenceField', F+':X4ReactionField', R+':X4Process.setParticleType', R+':X4ReactionCombination'])

p("A simplified row depends on its own row only",
  "If two datasets of the same class have the same headings and a row in common, their simplified forms give the same values and uncertainties for this row, at whatever place it is and whatever the other rows are. Leaving out rows or changing their order does not make the simplification fail, unless no value (or required uncertainty) is left. Appending datasets and simplifying gives the same as simplifying and appending.",
  "all datasets of the classes with a simplification, all tables and rows", "any number of rows, all columns and units; it relates different runs", [D+':X4DataSet.getSimplified', D+':X4DataSet.append', C+':X4ColumnParser.getColumn', C+':X4IndependentColumnPair'])

p("The datasets of a subentry depend on it and on the first subentry only",
  "If the datasets (or simplified datasets) of a whole entry can be made, they can be made from its first subentry and any selection of the others, as retrieve reads them for a query; each selected subentry gives the same datasets and the same errors as in the whole entry, and the others give none. Two entries with the same number that agree in the first subentry and in another one give the same datasets for it. Without the first subentry getDataSets raises KeyError.",
  "all entry files in EXFOR format, all selections of subentries, all queries", "it relates different runs on different selections of any number of subentries", [E+':x4EntryFactory', E+':X4Entry.getDataSets', E+':X4Entry.getSimplifiedDataSets', M+':X4DBManagerPlainFS.retrieve'])

p("The bibliographic attributes of a dataset are the written ones",
  "Authors, institute, reference, year and type of publication and title of a dataset are what the fields of its own subentry say, and where there is no such field, what those of the first subentry say; where neither has the field there is none. The number of the subentry is its own.",
  "all entry files in EXFOR format, all selections of subentries, all datasets", "all combinations of fields in two subentries, all texts in them", [D+':X4DataSet.__init__', S+':X4BibMetaData', E+':X4Entry.getDataSets', F+':X4TitleField'])

p("A simplified dataset depends neither on the places of the columns nor on other columns",
  "Two datasets of the same class with the same columns of interest (energy, temperature, angle, data, and their uncertainties and limits) give the same simplified table, or the same exception, whatever the order of these columns and whatever other columns there are. For entries: neither the order of the columns in the file matters, nor whether a quantity that is the same in all rows stands in the COMMON table of the first subentry, in that of the subentry, or in the DATA table, nor columns of other pointers.",
  "all datasets of the classes with a simplification, all orders of columns; all entry files in EXFOR format", "all permutations of any number of columns, with further columns anywhere; it relates different runs", [D+':X4DataSet.getSimplified', D+':X4DataSet.setData', C+':X4ColumnParser.firstMatch', C+':X4ColumnParser.getColumn', C+':condenseColumn'])

p("A simplified dataset does not depend on the units in which the quantities are given",
  "Two datasets of the same class whose columns of interest have the same headings and the same physical quantities, in whatever units of the same kind, give the same simplified table (headings, units and numbers, in exact arithmetic), or the same exception. For entries: the same holds for the units written in the file, together with the order and places of the columns.",
  "all datasets of the classes with a simplification, all quantities and units; all entry files in EXFOR format", "all numbers and all pairs of units, in all columns together; it relates different runs", [C+':getConversion', C+':X4ColumnParser.getColumn', C+':X4ColumnParser.isMatch', D+':X4DataSet.getSimplified'])

p("A simplified dataset does not depend on whether uncertainties are given in percent",
  "Two datasets of the same class that differ only in that uncertainties (or resolutions) of energies, temperatures, angles or data are given in percent of the quantity in the one and in a unit of the same kind as the quantity in the other give the same simplified table (headings, units and numbers, in exact arithmetic), or the same exception. The same holds for entries in which they are written so.",
  "all datasets of the classes with a simplification, all quantities, percentages and units, any selection of the columns for uncertainties; all entry files in EXFOR format", "all numbers, missing values and combinations of columns; it relates different runs", [C+':X4IndependentColumnPair', C+':X4AddErrorBarsColumnPair', C+':X4HighMidLowColumnPair', D+':X4DataSet.getSimplified'])

p("An entry does not depend on how it is laid out in its file",
  "Two files with the same subentries give the same entry object, or fail in the same way, and hence the same datasets, whatever stands after the accession numbers, in the counters of BIB, END, NOCOMMON and NODATA lines, whether these two are there at all, in the second counter of COMMON and DATA lines if it counts the rows, the rows with the two heading rows, or the lines, after column 66 (of bibliographic lines other than authors, and of tables with at most six columns), between the subentries (such as NOSUBENT lines), wherever the cells of a table stand within their eleven columns, and whether lines end with blanks. For wider tables blanks after column 66 do change the numbers that are read, and for authors a remark after column 66 does. A table with any other count is not read.",
  "all entries in EXFOR format, all pairs of layouts, all selections of subentries, all grammars", "all texts in the free places of any number of lines; it relates different runs", [E+':X4Entry.__init__', E+':x4EntryFactory', S+':X4DataSection.__init__', S+':X4BibSection.chunkify', F+':X4PlainField.__init__', F+':X4AuthorField'])

p("A database does not depend on how its files are laid out",
  "Two databases with the same index, whose entry files have the same contents in whatever layouts, give the same objects for every query and for every key, or fail in the same way; what is found by criteria without wildcards holds what is written in the files; and the program get-entry prints the same with all options, except with those two that together make it read the plain text of the file.",
  "all indexes, all pairs of directories, all criteria (also with wildcards), keys and options, all grammars", "all layouts of any number of files and all queries; it relates different runs", [M+':X4DBManagerPlainFS.retrieve', M+':X4DBManager.__getitem__', E+':x4EntryFactory', 'examples/get-entry.py:process_args'])

p("Quotes in search texts must be doubled",
  "If every quote in the texts of a query is written twice, the query gives exactly the subentries whose index rows have the texts with single quotes (together with the other criteria, and the first subentry of each entry). If the texts of a query have an odd number of quotes altogether, as for a name with an apostrophe given as it is, the query raises OperationalError for every index. (Texts are without NUL characters; in the second part also without what begins a comment, a quoted name or a further statement in SQL.)",
  "all indexes without missing subentry numbers, all criteria and combinations of them", "all texts with any number of quotes in any of the criteria, all tables", [M+':X4DBManagerPlainFS.query', M+':X4DBManager.run_sql_query'])

p("Searches ignore the case of letters and find what is in the index",
  "Changing the case of letters in the author, target, reaction, projectile or quantity of a search changes neither its result nor what is retrieved. A subentry is found by the values in its own row of the index, by one of them or several at once, in whatever case they are given.",
  "all indexes, all criteria and combinations of them, all ways to change the case of any letters", "all texts, all indexes; it relates different searches", [M+':X4DBManagerPlainFS.query', M+':X4DBManagerPlainFS.retrieve'])

p("Wildcards in searches",
  "In a reaction that contains an asterisk, the asterisk and the percent sign stand for any text (also none) and the underscore for any one character, without regard to case; in all other reactions and in all other criteria these characters stand for themselves. With this reading a query gives exactly the subentries with a row of the index that satisfies all criteria, for all texts (quotes written twice as in C122), and retrieve gives the objects that hold these subentries and the first one of each entry as they are written in the files.",
  "all indexes without missing subentry numbers, all databases in EXFOR format, all criteria and combinations of them", "all patterns and texts of any length", [M+':X4DBManagerPlainFS.query', M+':X4DBManagerPlainFS.retrieve'])

p("Datasets without readable columns for a quantity are reported as such",
  "A dataset whose table has no column with a known heading and a known unit for one of the quantities of its class (energies, angles, outgoing energies, data) is never simplified, whatever the numbers and the other columns are. If the energies are missing, NoValuesGivenError says Energy; if the energies are given and angles or outgoing energies are missing it says Angle or E'; if only the data are missing it says Data. Energy distributions in barns per unit of energy are always among them.",
  "all datasets of the classes with a simplification, all tables, all options", "all headings, units and numbers, any number of columns and rows", [D+':X4DataSet.getSimplified', C+':X4ColumnParser.isMatch', C+':X4ColumnParser.firstMatch', C+':condenseColumn'])

p("From a search to simplified quantities",
  "A search with any criteria (wildcards included) in a directory of EXFOR files in whatever layout finds the entries with a subentry that meets them, each with its first subentry and those that meet them. The dataset of such a subentry has the reaction, columns, units and numbers that are written in the file, with the columns of the COMMON tables first. Its simplified dataset, for cross sections, spectrum averages, neutron multiplicities, angular and energy distributions, holds the quantities in common units that the headings and units in the file say; if there is no readable column for one of them it is not simplified, and NoValuesGivenError says Energy if that is missing. In double precision each number comes out within 1e-14 of the exact one (relative to it and to the largest in its row).",
  "all directories and indexes, all criteria, all entries, subentries and pointers, all five classes with a simplification, all options", "all databases, searches, layouts and tables at once; the tests follow a few datasets of stored files", [M+':X4DBManagerPlainFS.retrieve', E+':X4Entry.getDataSets', D+':dataSetFactory', D+':X4DataSet.getSimplified'])

p("Changes of one entry of a database do not affect the others",
  "What a search finds of an entry, and the object it gives for it, depends only on the rows of the index for this entry and on its file, whatever else is in the database and in whatever order, also with rows that occur several times. After any change of the rows and the file of one entry a search that succeeded before gives the same objects for all other entries, or it fails because the changed entry is found and cannot be read. If the entry is removed from the index the search gives the same without it, whatever becomes of the file.",
  "all indexes, directories, criteria (also with quotes or wildcards) and changes", "all pairs of databases and all searches; it relates runs before and after a change", [M+':X4DBManagerPlainFS.query', M+':X4DBManagerPlainFS.retrieve', M+':X4DBManager.run_sql_query', E+':x4EntryFactory'])

p("Line ends of the files do not matter",
  "The lines that are read from a file are those its bytes hold, one character for each byte, whether they end in LF, in CR LF or in CR, also mixed, and whether or not the last line ends. Two databases that differ in line ends only, such as after copying between systems, give the same for every search, key and entry. A search in a directory given by bytes with any line ends and any layout finds what is written in it.",
  "all files (sequences of bytes), directories, indexes and criteria", "all sequences of bytes of any length; it relates different databases", [E+':x4EntryFactory', M+':X4DBManagerPlainFS.retrieve', M+':X4DBManager.__getitem__'])

p("Calls on one entry object do not disturb each other",
  "Whatever has been asked of an entry before (datasets, simplified datasets, metadata, any number of times and in any order), asking for datasets, simplified datasets or metadata gives the same as at the first time, or raises the same exception. After every call the recorded errors are those of this call.",
  "all entries, all grammars, all sequences of calls", "sequences of any length on objects that the calls change", [E+':X4Entry.getDataSets', E+':X4Entry.getSimplifiedDataSets', E+':X4Entry.meta', S+':X4BibMetaData'])

if __name__ == '__main__':
    for q in P: print(json.dumps(q))
