{"id": "C01", "title": "Every table cell is read from its own 11-column field", "statement": "When a DATA or COMMON section whose physical lines have at most 66 columns is parsed, the label, unit and value in logical row i, column j are exactly the (stripped) 11-character field number j mod 6 of the physical line that carries columns 6*(j div 6).. of that logical row; no cell is shifted, dropped, or taken from a neighbour.", "quantifier": "all sections, all numbers of columns and rows (hence all numbers of physical lines per row), all contents", "why_tests_cant": "depends on the number of columns, rows and continuation lines; tests check a handful of tables", "anchors": ["x4i3/exfor_section.py:X4DataSection.__init__"]}
{"id": "C02", "title": "A parsed table is rectangular", "statement": "If constructing a data section succeeds then labels and units have exactly numcols entries, raw_data and data have exactly numrows rows (none if numrows is negative), and every row has exactly numcols entries.", "quantifier": "all section texts for which the constructor returns", "why_tests_cant": "must hold for every accepted input, including inconsistent headers", "anchors": ["x4i3/exfor_section.py:X4DataSection.__init__"]}
{"id": "C03", "title": "Row-count conventions are reconciled exactly", "statement": "A data section with at least one column and LPR lines per row is accepted only if its line count is 2+(n+2)*LPR, 2+n*LPR or 2+n for the announced n; the resulting number of rows is then n, n-2 or n//LPR-2 respectively (first match wins), and in every other case IndexError is raised.", "quantifier": "all announced column/row counts and all section lengths", "why_tests_cant": "ranges over all pairs of counts and lengths", "anchors": ["x4i3/exfor_section.py:X4DataSection.__init__"]}
{"id": "C04", "title": "repr of a data section re-parses to the same section", "statement": "For every data section, parsing the lines of repr(section) yields a section with the same tag, labels, units, raw cell text, values and pointers.", "quantifier": "all parsed sections, any number of columns and rows", "why_tests_cant": "round-trip over an unbounded input space", "anchors": ["x4i3/exfor_section.py:X4DataSection.__repr__", "x4i3/exfor_section.py:X4DataSection.__init__"]}
{"id": "C05", "title": "Columns past 66 (sequence numbers) never influence the table", "statement": "Text past column 66 of a physical line does not influence any label, unit or value of the section.", "quantifier": "all sections and all trailing text on any physical line", "why_tests_cant": "two-run (non-interference) property over all inputs", "anchors": ["x4i3/exfor_section.py:X4DataSection.__init__"]}
{"id": "C06", "title": "Pointer map lists exactly the columns carrying each pointer", "statement": "After parsing a data section, pointers[p] is the list, in order, of exactly those column indices whose 11-character label ends in p, and p is a key iff such a column exists.", "quantifier": "all sections", "why_tests_cant": "quantifies over all label rows", "anchors": ["x4i3/exfor_section.py:X4DataSection.__init__"]}
{"id": "C07", "title": "FORTRAN numbers are decoded to the value they denote", "statement": "parseFORTRANNumber returns None exactly on blank fields; agrees with float() wherever float() accepts the string; decodes an E-less FORTRAN number <mantissa><sign><1 or 2 digits> as mantissa*10^(signed exponent); rejects an E-less number with three or more exponent digits; ignores blanks inside a number that carries an explicit E; and the only exception it ever raises is BrokenNumberError carrying the original string.", "quantifier": "all strings", "why_tests_cant": "input space of all strings / all mantissas and exponents", "anchors": ["x4i3/exfor_utilities.py:parseFORTRANNumber"]}
{"id": "C08", "title": "A raw request is cut into exactly its entries", "statement": "chunkifyX4Request decomposes the request uniquely as junk/entry/junk/.../tail where each returned chunk starts with an ENTRY line, ends with the first following ENDENTRY line, junk contains no ENTRY line, and the tail contains no complete entry; chunks are returned in order and unmodified.", "quantifier": "all lists of lines", "why_tests_cant": "any interleaving of headers, terminators and junk", "anchors": ["x4i3/exfor_utilities.py:chunkifyX4Request"]}
{"id": "C09", "title": "Entries are cut into exactly their subentries and subentries into exactly their sections", "statement": "X4Entry.chunkify and X4SubEntry.chunkify decompose their input uniquely in the same way, for SUBENT..ENDSUBENT and BIB|DATA|COMMON..END*; re-chunking the concatenated chunks returns the same chunks.", "quantifier": "all lists of lines", "why_tests_cant": "any interleaving of headers, terminators and junk", "anchors": ["x4i3/exfor_entry.py:X4Entry.chunkify", "x4i3/exfor_subentry.py:X4SubEntry.chunkify"]}
{"id": "C10", "title": "Reading an entry file is lossless and respects the requested subentries", "statement": "For every entry file made of an ENTRY line, subentries (SUBENT line, body, ENDSUBENT line), NOSUBENT lines and an ENDENTRY line, x4EntryFactory(rawEntry=True) returns the texts of precisely the subentries whose accession number is in subentsList (all of them when it is None), in file order, each equal byte for byte to its lines.", "quantifier": "all such files, any number and size of subentries, any subentsList", "why_tests_cant": "any number of subentries/lines and any filter", "anchors": ["x4i3/exfor_entry.py:x4EntryFactory"]}
{"id": "C11", "title": "Entry numbers are validated before any file is touched", "statement": "x4EntryFactory and x4DictionaryEntryFactory raise ValueError for every entry number that does not have exactly 5 characters, and do not read the database in that case.", "quantifier": "all strings, all file systems", "why_tests_cant": "all strings and all database contents", "anchors": ["x4i3/exfor_entry.py:x4EntryFactory", "x4i3/exfor_entry.py:x4DictionaryEntryFactory"]}
{"id": "C12", "title": "All spellings of a subentry index are equivalent", "statement": "entry[i] for an int 0<=i<=999, its decimal string, its zero-padded string, and the full 8-character accession number all give the same result (value or KeyError); every string of 4..7 or more than 8 characters raises KeyError.", "quantifier": "all entries, all indices", "why_tests_cant": "all entries and all spellings", "anchors": ["x4i3/exfor_entry.py:X4Entry.__getitem__"]}
{"id": "C13", "title": "An entry is keyed by the accession numbers of its subentries", "statement": "When X4Entry(raw) succeeds, accnum is the 5-character entry number of the first subentry, the keys are exactly the 8-column accession fields of the given subentries, and each key maps to the last subentry with that number; a raw entry with no usable 5-character number raises KeyError.", "quantifier": "all raw entries", "why_tests_cant": "all lists of subentry texts", "anchors": ["x4i3/exfor_entry.py:X4Entry.__init__", "x4i3/exfor_entry.py:extractX4EntryIndex", "x4i3/exfor_subentry.py:extractX4SubEntryIndex"]}
{"id": "C14", "title": "repr of an entry or subentry can be parsed back", "statement": "The text returned by repr(entry) / repr(subentry) is suitable for parsing with x4i: parsing it again yields the same accession numbers.", "quantifier": "all entries and subentries", "why_tests_cant": "round-trip over all inputs", "anchors": ["x4i3/exfor_entry.py:X4Entry.__repr__", "x4i3/exfor_subentry.py:X4SubEntry.__repr__", "x4i3/exfor_subentry.py:extractX4SubEntryIndex", "x4i3/exfor_entry.py:extractX4EntryIndex"]}
{"id": "C15", "title": "Deleted entries are recognised", "statement": "entry.deleted() is True for every entry whose HISTORY field contains the text ENTRY DELETED (and getDataSets returns an empty mapping for it), and False otherwise.", "quantifier": "all entries", "why_tests_cant": "all HISTORY texts", "anchors": ["x4i3/exfor_entry.py:X4Entry.deleted", "x4i3/exfor_field.py:X4PlainField"]}
{"id": "C16", "title": "Reading metadata does not change the entry", "statement": "meta(), getDataSets() and getSimplifiedDataSets() do not change the observable state of the entry: str/repr/lookup of any of its sections give the same result before and after, in any order of calls.", "quantifier": "all entries and all call histories", "why_tests_cant": "history property over call sequences", "anchors": ["x4i3/exfor_section.py:X4BibMetaData.__init__", "x4i3/exfor_entry.py:X4Entry.getDataSets"]}
{"id": "C17", "title": "Exactly one dataset per data-carrying subentry and reaction pointer", "statement": "getDataSets returns a mapping whose keys are (entry, subentry, pointer) triples, one for every subentry with a DATA section and every pointer of the main or the subentry's own REACTION field, except those for which an error was recorded in entry.errors; the subentry's own reaction replaces the main one for the same pointer.", "quantifier": "all entries", "why_tests_cant": "all combinations of main/sub reactions and pointers", "anchors": ["x4i3/exfor_entry.py:X4Entry.getDataSets"]}
{"id": "C18", "title": "Simplification never loses a dataset", "statement": "getSimplifiedDataSets returns the same keys as getDataSets; each value is either the simplified dataset or, when simplification raised one of the handled exceptions, the unsimplified dataset together with a message in entry.errors under that key; handled exceptions never escape.", "quantifier": "all entries, both values of makeAllColumns", "why_tests_cant": "all datasets and failure combinations", "anchors": ["x4i3/exfor_entry.py:X4Entry.getSimplifiedDataSets"]}
{"id": "C19", "title": "Dataset rows line up with their labels", "statement": "Building a dataset from a DATA section and two optional one-row COMMON sections without pointers gives labels = labels of the COMMON sections followed by the selected DATA labels, units likewise, and each row = the COMMON values followed by the selected values of the corresponding DATA row, in the same order.", "quantifier": "all DATA sections (any pointers), all COMMON sections, all pointers", "why_tests_cant": "all shapes and pointer patterns", "anchors": ["x4i3/exfor_dataset.py:X4DataSet.setData"]}
{"id": "C20", "title": "Pointer selection keeps exactly the right columns", "statement": "A DATA column is kept in the dataset for pointer p iff its label carries no pointer or carries pointer p; this also holds for columns of COMMON sections, whose values stay under their own labels.", "quantifier": "all DATA and COMMON sections, all pointers", "why_tests_cant": "all pointer patterns", "anchors": ["x4i3/exfor_dataset.py:X4DataSet.setData"]}
{"id": "C21", "title": "COMMON sections with several rows", "statement": "When a COMMON section has k != 1 rows, dataset row i takes the COMMON row i for i<k; no value is invented for the remaining rows.", "quantifier": "all k, all numbers of data rows", "why_tests_cant": "all row counts", "anchors": ["x4i3/exfor_dataset.py:X4DataSet.setData"]}
{"id": "C22", "title": "Metadata precedence", "statement": "Each bibliographic attribute of a dataset is the one given by the last metadata record (subentry over main) that has a value other than None/'None', and the default otherwise.", "quantifier": "all lists of metadata records", "why_tests_cant": "all combinations of present/absent attributes", "anchors": ["x4i3/exfor_dataset.py:X4DataSet.__init__"]}
{"id": "C23", "title": "Simplified datasets are rectangular and complete", "statement": "When getSimplified succeeds on a dataset not simplified before, the result has one row per original row, labels are the requested columns followed by d(column) for the columns with uncertainties (for all when makeAllColumns), and units and every row have exactly as many entries as labels.", "quantifier": "all rectangular datasets, all parser maps / column lists", "why_tests_cant": "all shapes", "anchors": ["x4i3/exfor_dataset.py:X4DataSet.getSimplified"]}
{"id": "C24", "title": "Simplifying never modifies the dataset it is called on", "statement": "After r = d.getSimplified(...), no later mutation of r through the dataset API (sort, append) changes d.", "quantifier": "all datasets, all later histories of operations on r", "why_tests_cant": "aliasing property over operation histories", "anchors": ["x4i3/exfor_dataset.py:X4DataSet.getSimplified", "x4i3/exfor_dataset.py:X4DataSet.sort", "x4i3/exfor_dataset.py:X4DataSet.append"]}
{"id": "C25", "title": "Missing values and uncertainties are reported, not invented", "statement": "getSimplified raises NoValuesGivenError iff some requested column has no value in any row; with failIfMissingErrors (and not makeAllColumns) it raises NoUncertaintyGivenError iff some column has no uncertainty; with makeAllColumns the missing uncertainties are 0.0 in every row. (All this for datasets whose columns are read without another failure, such as an unknown unit.)", "quantifier": "all datasets and flags", "why_tests_cant": "all datasets/flag combinations", "anchors": ["x4i3/exfor_dataset.py:X4DataSet.getSimplified"]}
{"id": "C26", "title": "Unit conversion lands in canonical units and is idempotent", "statement": "For every unit string, converting to canonical units a second time changes neither unit nor value; each known unit is mapped to the documented canonical unit with the documented factor, and unknown units are left alone.", "quantifier": "all strings", "why_tests_cant": "all strings", "anchors": ["x4i3/exfor_column_parsing.py:X4ColumnParser.getConversion"]}
{"id": "C27", "title": "Reported uncertainties are never negative", "statement": "Every numeric entry of an uncertainty column returned by any column-pair parser is >= 0.", "quantifier": "all datasets, all parsers", "why_tests_cant": "all numeric contents", "anchors": ["x4i3/exfor_column_parsing.py:absOrNone", "x4i3/exfor_column_parsing.py:X4IndependentColumnPair.getError", "x4i3/exfor_column_parsing.py:X4HighLowColumnPair.getError", "x4i3/exfor_column_parsing.py:X4HighMidLowColumnPair.getError", "x4i3/exfor_column_parsing.py:X4AddErrorBarsColumnPair.getError", "x4i3/exfor_column_parsing.py:X4ConstantPercentColumnPair.getError"]}
{"id": "C28", "title": "Percent uncertainties are converted to absolute ones", "statement": "If the uncertainty column is in PER-CENT, the reported uncertainty of a row is |value * percent / 100| in the unit of the value column, and None when either is missing; otherwise it is |uncertainty| converted by its own unit.", "quantifier": "all datasets", "why_tests_cant": "all numeric contents", "anchors": ["x4i3/exfor_column_parsing.py:X4IndependentColumnPair.getError"]}
{"id": "C29", "title": "Bin limits give midpoint and half-width", "statement": "For columns given as MIN and MAX, a row with both limits reports value=(min+max)/2 and uncertainty=|max-min|/2, so that value-uncertainty and value+uncertainty are again the two limits; rows with a missing limit report no uncertainty.", "quantifier": "all datasets", "why_tests_cant": "all numeric contents", "anchors": ["x4i3/exfor_column_parsing.py:X4HighLowColumnPair"]}
{"id": "C30", "title": "Asymmetric errors give the centre and half-width of the quoted interval", "statement": "For value x with -err a and +err b the reported value and uncertainty satisfy value-unc = x-a and value+unc = x+b whenever a+b>=0.", "quantifier": "all datasets", "why_tests_cant": "all numeric contents", "anchors": ["x4i3/exfor_column_parsing.py:X4HighMidLowColumnPair"]}
{"id": "C31", "title": "Systematic and statistical errors are added in quadrature in consistent units", "statement": "With both error columns absolute, or both in percent, the reported uncertainty u satisfies u^2 = s^2 + t^2 for the absolute errors s,t of that row; when exactly one of the two is in percent only that one is scaled by the value.", "quantifier": "all datasets", "why_tests_cant": "all unit combinations and contents", "anchors": ["x4i3/exfor_column_parsing.py:X4AddErrorBarsColumnPair.getError"]}
{"id": "C32", "title": "Column condensation takes the first parser that has a value", "statement": "Condensing the columns of a parser list row by row gives, for each position, the first non-None entry in parser order (None if there is none), independent of how the reduction is bracketed.", "quantifier": "all lists of equally long columns", "why_tests_cant": "all lists", "anchors": ["x4i3/exfor_column_parsing.py:condenseColumn"]}
{"id": "C33", "title": "Cross sections given in barn*sqrt(eV) can be simplified", "statement": "A cross-section dataset with a DATA column in B*RT-EV and an energy column simplifies to barns by dividing by sqrt(E).", "quantifier": "all datasets with such a column", "why_tests_cant": "all datasets", "anchors": ["x4i3/exfor_column_parsing.py:X4BarnsSqrtEColumnPair", "x4i3/exfor_column_parsing.py:energyParserList"]}
{"id": "C34", "title": "A vanishing cosine uncertainty gives a vanishing angle uncertainty", "statement": "For a COS column with a COS-ERR column, the reported angle uncertainty is 0 when the quoted cosine uncertainty is 0.", "quantifier": "all datasets with cosine columns", "why_tests_cant": "all numeric contents", "anchors": ["x4i3/exfor_column_parsing.py:X4AngleColumnParser.getColumn", "x4i3/exfor_column_parsing.py:angleParserList"]}
{"id": "C35", "title": "Dataset class is determined by the quantity", "statement": "X4DataSetFactory maps every quantity list to the documented dataset class: the listed exact SIG combinations to cross-section / spectrum-averaged classes, otherwise RI, POL/DA, DA, NU, DE in that order of priority, otherwise the generic class; coupled reactions are accepted iff all reactions in the expression have the same quantity.", "quantifier": "all quantity lists and coupled expressions", "why_tests_cant": "all lists", "anchors": ["x4i3/exfor_dataset.py:X4DataSetFactory"]}
{"id": "C36", "title": "Appending datasets neither loses nor duplicates rows", "statement": "append adds exactly the other dataset's rows after the existing ones when labels, units and reaction agree, copies everything when the receiver is empty, and otherwise leaves the receiver unchanged; hence a sequence of appends yields the concatenation of the rows of the compatible datasets.", "quantifier": "all datasets and all append sequences", "why_tests_cant": "histories of appends", "anchors": ["x4i3/exfor_dataset.py:X4DataSet.append"]}
{"id": "C37", "title": "Plain fields survive printing", "statement": "For every raw field, parsing the lines of repr(field) gives a field with the same tag, the same pointers and the same text lines under each pointer.", "quantifier": "all raw fields", "why_tests_cant": "round-trip over all inputs", "anchors": ["x4i3/exfor_field.py:X4PlainField.__init__", "x4i3/exfor_field.py:X4PlainField.__repr__"]}
{"id": "C38", "title": "Printing a canonical field reproduces it exactly", "statement": "If a raw field is in canonical form (tag on the first line only, pointers strictly increasing and given once each, no trailing blanks, at most 66 columns) then repr(field) is the original text.", "quantifier": "all canonical fields", "why_tests_cant": "round-trip over all inputs", "anchors": ["x4i3/exfor_field.py:X4PlainField.__repr__"]}
{"id": "C39", "title": "Every field line is stored once under the pointer in force", "statement": "The text of line k of a field is stored under the last pointer character seen at or before line k (blank if none); the total number of stored lines equals the number of raw lines and order is preserved within each pointer.", "quantifier": "all raw fields", "why_tests_cant": "all inputs", "anchors": ["x4i3/exfor_field.py:X4PlainField.__init__", "x4i3/exfor_field.py:X4PlainField.total_len"]}
{"id": "C40", "title": "BIB sections are cut into fields without losing lines", "statement": "Concatenating the fields found in a BIB section gives back all its lines other than the BIB/ENDBIB lines, in order; every field after the first starts with a non-blank tag and contains no other tag line. The section's keys are the tags in columns 0 to 9, and looking up a tag gives the last field with it.", "quantifier": "all sections", "why_tests_cant": "all inputs", "anchors": ["x4i3/exfor_section.py:X4BibSection.chunkify"]}
{"id": "C41", "title": "Printed BIB counters are consistent", "statement": "repr of a BIB section announces as many fields as the section has and as many lines as it prints between header and trailer.", "quantifier": "all BIB sections with distinct tags", "why_tests_cant": "all inputs", "anchors": ["x4i3/exfor_section.py:X4BibSection.__repr__", "x4i3/exfor_section.py:X4BibSection.totalLen"]}
{"id": "C42", "title": "Multi-line MONITOR entries stay together", "statement": "When a MONITOR reaction in parentheses continues on the following line, the two lines form one monitor entry; text lines are never split into characters and no line is lost.", "quantifier": "all MONITOR fields", "why_tests_cant": "all inputs", "anchors": ["x4i3/exfor_field.py:X4MonitorField.__init__"]}
{"id": "C43", "title": "Publication years are four digits", "statement": "parseX4Year maps every date string of 2, 4, 6 or 8 decimal digits 0-9 to a 4-character year starting with 19 or 20, keeps an explicit 19xx/20xx year, and raises TypeError for any string with a non-digit other than ')'.", "quantifier": "all strings", "why_tests_cant": "all strings", "anchors": ["x4i3/exfor_reference.py:parseX4Year"]}
{"id": "C44", "title": "Query results are grouped, sorted and duplicate-free", "statement": "For every index table and criteria, query returns a mapping whose keys are the 5-character prefixes of the matching subentries; each list starts with the documentation subentry <key>001, continues with precisely the other matching subentries of that entry in increasing order, and contains no duplicates.", "quantifier": "all index tables, all criteria", "why_tests_cant": "all databases", "anchors": ["x4i3/exfor_manager.py:X4DBManagerPlainFS.query", "x4i3/exfor_utilities.py:unique"]}
{"id": "C45", "title": "A query means the conjunction of its criteria", "statement": "The subentries found by query are exactly the ones having an index row that satisfies all given criteria simultaneously (author capitalised, target/reaction/projectile/quantity upper-cased, CS meaning SIG, * in reaction matching any text); adding a criterion can only shrink the result. User-supplied text never changes the meaning of the condition.", "quantifier": "all index tables, all argument strings", "why_tests_cant": "all databases and all argument strings (including quotes)", "anchors": ["x4i3/exfor_manager.py:X4DBManagerPlainFS.query", "x4i3/exfor_manager.py:X4DBManager.run_sql_query"]}
{"id": "C46", "title": "Unsupported criteria are ignored, empty queries return nothing", "statement": "product, MF, MT, C, S and I have no influence on the result of query; a query without any supported criterion returns an empty mapping without consulting the index.", "quantifier": "all arguments and databases", "why_tests_cant": "all argument combinations", "anchors": ["x4i3/exfor_manager.py:X4DBManagerPlainFS.query"]}
{"id": "C47", "title": "retrieve returns the subentries that query names", "statement": "retrieve has the same keys as query for the same criteria, and its raw value for an entry is exactly the list of subentry texts of the entry file whose accession number query listed (so the documentation subentry is always included when the file has it).", "quantifier": "all databases and criteria", "why_tests_cant": "all databases", "anchors": ["x4i3/exfor_manager.py:X4DBManagerPlainFS.retrieve", "x4i3/exfor_entry.py:x4EntryFactory"]}
{"id": "C48", "title": "Manager indexing and membership", "statement": "db[k] is retrieve by entry for 5-character keys and by subentry for 8-character keys (ints being converted), KeyError for all other lengths; k in db tells whether the corresponding query is non-empty.", "quantifier": "all keys and databases", "why_tests_cant": "all keys", "anchors": ["x4i3/exfor_manager.py:X4DBManager.__getitem__", "x4i3/exfor_manager.py:X4DBManager.__contains__", "x4i3/exfor_manager.py:X4DBManager.__fixkey__"]}
{"id": "C49", "title": "The memory-cached manager agrees with the file-system manager", "statement": "For every database and criteria the memory-cached manager's retrieve returns the same result as the plain file-system manager's.", "quantifier": "all databases and criteria", "why_tests_cant": "two implementations over all databases", "anchors": ["x4i3/exfor_manager.py:X4DBManagerMemoryCached.retrieve", "x4i3/exfor_entry.py:x4DictionaryEntryFactory", "x4i3/__init__.py:DataBaseCache"]}
{"id": "C50", "title": "The database cache behaves like a snapshot of the db folder", "statement": "Item access on the cache returns the lines of the file at the time of first successful access, for every later access in any order; the folder is scanned at most once; a failed scan leaves the cache usable for a retry; missing files raise KeyError.", "quantifier": "all file systems, all access histories", "why_tests_cant": "history/state-machine property", "anchors": ["x4i3/__init__.py:DataBaseCache"]}
{"id": "C51", "title": "An interrupted installation is never mistaken for a complete one", "statement": "At every crash point of the download-and-unpack procedure, if all the files checked for presence exist then either nothing has been changed yet or the database on disk is completely unpacked; provided that index.tbl is not a directory, the archive does not itself contain the tag file, and a cut-off transfer is noticed (by the announced size, or by tarfile).", "quantifier": "all crash points, all archives, all initial states", "why_tests_cant": "crash-point quantification", "anchors": ["x4i3/__init__.py:_download_and_unpack_file", "x4i3/__init__.py:check_if_exists"]}
{"id": "C52", "title": "A failed download leaves the previous database in place", "statement": "If the download fails or is incomplete, the previously installed database is still complete afterwards.", "quantifier": "all failure points", "why_tests_cant": "fault injection at every point", "anchors": ["x4i3/__init__.py:_download_and_unpack_file"]}
{"id": "C53", "title": "Residual nuclei conserve charge and mass", "statement": "Whenever a process's residual is computed (or matched) rather than left undefined, the charges and mass numbers of target plus projectile equal those of the remaining products plus residual; elastic/inelastic channels have the target as residual.", "quantifier": "all targets, projectiles and product lists", "why_tests_cant": "all reactions", "anchors": ["x4i3/exfor_reactions.py:X4Process.setResidual"]}
{"id": "C54", "title": "Every listed particle code can be constructed with its charge and mass", "statement": "For every particle code in the charge/mass tables, X4Particle(code) has that code's charge and mass number.", "quantifier": "the whole table, any letter case", "why_tests_cant": "finite table but with parser interaction", "anchors": ["x4i3/exfor_particle.py:X4Particle.__init__", "x4i3/exfor_particle.py:x4ZMap", "x4i3/exfor_particle.py:x4AMap"]}
{"id": "C55", "title": "Isomer arithmetic is unfolded into the equivalent combination", "statement": "Repacking a reaction whose residual carries isomer math produces the parenthesised combination with one reaction per isomer state, in order, separated by the same operators, each reaction being the original with the residual's isomer replaced.", "quantifier": "all reactions with isomer math", "why_tests_cant": "unbounded number of states", "anchors": ["x4i3/exfor_reactions.py:X4ReactionIsomerCombination.repack"]}
{"id": "C56", "title": "Dictionary names and numbers correspond one to one", "statement": "getDictionaryName and getDictionaryIndex are inverse to each other on the listed dictionaries and return None elsewhere; both spellings give the same file name.", "quantifier": "all ints and strings", "why_tests_cant": "all keys", "anchors": ["x4i3/exfor_dicts.py:X4DictionaryServer"]}
{"id": "C57", "title": "Dictionary files are decoded field by field", "statement": "For every dictionary file made of fixed-width records with distinct non-blank keys, getDictionary maps each key to the list of its remaining fields, and one record's parsing does not influence another's.", "quantifier": "all dictionary files", "why_tests_cant": "all files", "anchors": ["x4i3/exfor_dicts.py:getDictionary"]}
{"id": "C58", "title": "Element symbols and charges correspond one to one", "statement": "endl_SymbolZ and endl_ZSymbol are inverse to each other for 0<=Z<=118 and give None elsewhere.", "quantifier": "all integers and strings", "why_tests_cant": "whole domain of ints/strings", "anchors": ["x4i3/endl_Z.py:endl_ZSymbol", "x4i3/endl_Z.py:endl_SymbolZ"]}
{"id": "C59", "title": "Natural abundances are consistent", "statement": "getAbundance is (0,0) exactly for isotopes not in the table; for every element with an entry the abundances add up to 100 percent within 0.1 percent, and every abundance lies in (0,100].", "quantifier": "all (Z,A)", "why_tests_cant": "whole table and all absent keys", "anchors": ["x4i3/abundance.py:getAbundance"]}
{"id": "C60", "title": "unique keeps first occurrences in order", "statement": "unique(l) has no duplicates, the same members as l, is a subsequence of l, keeps each element at its first occurrence, and is idempotent.", "quantifier": "all lists", "why_tests_cant": "all lists", "anchors": ["x4i3/exfor_utilities.py:unique"]}
{"id": "C61", "title": "Tolerance comparison is a symmetric, reflexive relation that implies closeness", "statement": "withinXPercent is symmetric and reflexive, and when it returns True for values that are not below the absolute tolerance their difference is at most the given percentage of their mean magnitude; allWithinXPercent is its pointwise lifting and False for different lengths.", "quantifier": "all numbers and lists", "why_tests_cant": "all numeric inputs", "anchors": ["x4i3/exfor_utilities.py:withinXPercent", "x4i3/exfor_utilities.py:allWithinXPercent"]}
{"id": "C62", "title": "Tables built from dictionaries are rectangular and faithful", "statement": "list_of_dicts_to_table returns rows with exactly one entry per column, entry (i,k) being the i-th dictionary's value for column k (None if absent); without explicit columns the columns are the distinct keys in order of first appearance.", "quantifier": "all lists of dictionaries", "why_tests_cant": "all inputs", "anchors": ["x4i3/exfor_utilities.py:list_of_dicts_to_table"]}
{"id": "C63", "title": "Reference fields are cut into their references", "statement": "Each parenthesised reference in a REFERENCE field, together with its continuation lines, becomes one reference string, in order and without losing text.", "quantifier": "all REFERENCE fields", "why_tests_cant": "all inputs", "anchors": ["x4i3/exfor_field.py:X4ReferenceField.__init__"]}
{"id": "C64", "title": "A reaction text is read as what it is written from", "statement": "For every reaction written from a target, projectile, products, optional residual (nuclei with isomer states, compounds, particles) and descriptors, the grammar reads the text back as exactly these parts, and the reaction object constructed from it has the target's and projectile's charge and mass number and the written quantity. (No product that begins like an isomer letter may follow a nucleus, and no 'B' may precede a '+'; there the text is ambiguous.)", "quantifier": "all well-formed reaction texts, any number of products, isomers and descriptors", "why_tests_cant": "unbounded texts; ambiguous grammar alternatives", "anchors": ["x4i3/exfor_grammers.py:x4reaction", "x4i3/exfor_reactions.py:X4Reaction.__init__"]}
{"id": "C65", "title": "A REACTION field is read as its reactions, operators and free text", "statement": "For every combination of reactions with operators and nested parentheses followed by free text, the field's measurement is the combination with the same reactions, operators and parentheses in the same order, and the rest of the line is returned as free text; a single reaction gives that reaction.", "quantifier": "all nested combinations, any depth and length, any free text that does not begin with an operator", "why_tests_cant": "unbounded nesting", "anchors": ["x4i3/exfor_grammers.py:x4reactionfield", "x4i3/exfor_field.py:X4ReactionField.getMeasurementType", "x4i3/exfor_reactions.py:X4ReactionCombination"]}
{"id": "C66", "title": "A reference is read as its type, name, details and date", "statement": "A reference in parentheses, with its items separated by commas, blanks anywhere between the words and parentheses within items, gives exactly these items without blanks, the first being the type, the second the name, the last the date (with the year of the date); of a reference with several names, ((A)=(B)=...), all names are read in order. The printed name is that of the dictionary for the type, or the type and the code if the dictionary has no entry.", "quantifier": "all reference texts, any number of items and of further names", "why_tests_cant": "unbounded texts; nested-expression grammar", "anchors": ["x4i3/exfor_field.py:X4ReferenceField", "x4i3/exfor_reference.py:X4ReferenceCode", "x4i3/exfor_grammers.py:x4refcode"]}
{"id": "C67", "title": "Every author is listed once, in order, as written up to case and blanks", "statement": "The author list of an AUTHOR field is the list of the names between the commas, each with its words separated by one blank and with normalised case, whatever follows the list and wherever the lines are broken.", "quantifier": "all AUTHOR fields", "why_tests_cant": "all inputs, including apostrophes in names", "anchors": ["x4i3/exfor_field.py:X4AuthorField.__init__", "x4i3/exfor_grammers.py:x4authorfield", "x4i3/exfor_grammers.py:x4authorlist"]}
{"id": "C68", "title": "Every institute is listed once, with its dictionary name and comment", "statement": "The institutes of an INSTITUTE field are the codes given in it, in order, each with the name that dictionary 3 has for it (or the code itself) and with the words following it as comment.", "quantifier": "all INSTITUTE fields and dictionaries", "why_tests_cant": "all inputs", "anchors": ["x4i3/exfor_field.py:X4InstituteField.__init__", "x4i3/exfor_grammers.py:x4textfield"]}
{"id": "C69", "title": "Every reference type has a publication type", "statement": "A REFERENCE field whose first reference is of a type listed in dictionary 4 gets a publication type.", "quantifier": "all types in the dictionary", "why_tests_cant": "whole dictionary; two tables maintained apart", "anchors": ["x4i3/exfor_field.py:pubTypeMap", "x4i3/exfor_field.py:X4ReferenceField.__init__", "x4i3/dicts/dict04.txt"]}
{"id": "C70", "title": "The main reference is that of the first reference that can be read", "statement": "The attributes of a REFERENCE field (type, name, details, date, year, publication type) are those of the first reference in the field that can be read, as the comment in the code says, whatever the other references are.", "quantifier": "all REFERENCE fields, any number of pointers and references", "why_tests_cant": "all combinations of readable and unreadable references", "anchors": ["x4i3/exfor_field.py:X4ReferenceField.__init__"]}
{"id": "C71", "title": "Family names", "statement": "The family name of an author is what follows the initials, and is not empty.", "quantifier": "all author names", "why_tests_cant": "all inputs", "anchors": ["x4i3/exfor_field.py:X4AuthorField.__init__"]}
{"id": "C72", "title": "Legends and citations name the authors, the year and the source", "statement": "The legend of a BIB section shows the year of its main reference and its authors (all of up to two, otherwise the first two and 'et al.'); its citation names the same authors, all references, the subentry and the date.", "quantifier": "all BIB sections", "why_tests_cant": "all inputs", "anchors": ["x4i3/exfor_section.py:X4BibMetaData.legend", "x4i3/exfor_section.py:X4BibMetaData.citation"]}
{"id": "C73", "title": "A reference printed in EXFOR form reads back", "statement": "The text that repr gives for a reference code is read as the same reference code.", "quantifier": "all reference codes", "why_tests_cant": "all inputs", "anchors": ["x4i3/exfor_reference.py:X4ReferenceCode.__repr__", "x4i3/exfor_reference.py:X4ReferenceCode.__init__"]}
{"id": "C74", "title": "The metadata of an entry are those of its first subentry, and announce deletion", "statement": "Legend, header and citation of an entry are those of the BIB section of its first subentry, the citation ending in the number of that subentry and the date of the reference; for a deleted entry they say that it was deleted instead. The metadata also list the accession numbers of all subentries of the entry, each once, in increasing order.", "quantifier": "all entries", "why_tests_cant": "all inputs", "anchors": ["x4i3/exfor_entry.py:X4EntryMetaData"]}
{"id": "C75", "title": "Everything but the rows of a printed dataset is commented out", "statement": "In the text of a dataset the lines before the rows (header, monitor, frame, labels, units) begin with '#', and there is one further line for each row, in order, and a blank line.", "quantifier": "all datasets whose texts contain no line ends", "why_tests_cant": "any number of rows and columns", "anchors": ["x4i3/exfor_dataset.py:X4DataSet.__str__", "x4i3/exfor_dataset.py:X4DataSet.strHeader", "x4i3/exfor_section.py:X4BibMetaData.xmgraceHeader"]}
{"id": "C76", "title": "The rows of a printed dataset read back cell by cell", "statement": "Splitting the uncommented lines of the text of a dataset at blanks gives the texts of its cells.", "quantifier": "all datasets", "why_tests_cant": "all values, including those with many digits", "anchors": ["x4i3/exfor_dataset.py:X4DataSet.__str__"]}
{"id": "C77", "title": "The reported frame is that of the angles or outgoing energies", "statement": "An angular or energy distribution is reported in the center of mass exactly if its angle or outgoing energy column is given in the center of mass.", "quantifier": "all datasets", "why_tests_cant": "all combinations of column labels", "anchors": ["x4i3/exfor_dataset.py:X4AngularDistributionDataSet.__init__", "x4i3/exfor_dataset.py:X4EnergyDistributionDataSet.__init__"]}
{"id": "C78", "title": "CSV files read back", "statement": "The CSV file written for a dataset or a DATA section reads back as the labels, the units and the rows, cell by cell, whatever characters they contain; missing values are empty fields.", "quantifier": "all datasets and sections", "why_tests_cant": "all texts", "anchors": ["x4i3/exfor_dataset.py:X4DataSet.csv", "x4i3/exfor_section.py:X4DataSection.csv"]}
{"id": "C79", "title": "Isomeric states are read as written", "statement": "A nucleus with a state -G, -M, -M1, -M2, ..., -T gives an object for that nucleus with the level 0, 1, the number written, and no level; several states connected by operators are never read as one state.", "quantifier": "all nuclei and states", "why_tests_cant": "all numbers and combinations of states", "anchors": ["x4i3/exfor_particle.py:X4Isomer.__init__", "x4i3/exfor_reactions.py:X4Process.setParticleType"]}
{"id": "C80", "title": "Every reaction of a combination is listed", "statement": "The list of reactions of a combination, and of the field that contains it, has every reaction of the written combination in order, isomer arithmetic being replaced by the reactions for the single isomers; a combination has a quantity exactly if one of its reactions has it.", "quantifier": "all combinations", "why_tests_cant": "unbounded nesting", "anchors": ["x4i3/exfor_reactions.py:X4ReactionCombination.getReactionList", "x4i3/exfor_reactions.py:X4ReactionCombination.has_quantity", "x4i3/exfor_field.py:X4ReactionField.getX4ReactionList"]}
{"id": "C81", "title": "A combination is printed as it is written", "statement": "The text of a combination of reactions is the written combination with each reaction replaced by its own text in parentheses, operators and parentheses being kept in order.", "quantifier": "all combinations", "why_tests_cant": "unbounded nesting", "anchors": ["x4i3/exfor_reactions.py:X4ReactionCombination.print_gizmo"]}
{"id": "C82", "title": "The type of a reaction is the text of its quantity code", "statement": "The type of a reaction is the text that the dictionary of quantities gives for the descriptors of the reaction as they are written.", "quantifier": "all reactions and dictionaries", "why_tests_cant": "all descriptors", "anchors": ["x4i3/exfor_reactions.py:X4Reaction.getReactionType"]}
{"id": "C83", "title": "Several particles are printed with their number", "statement": "A product such as 2N is printed with its number, both in the readable and in the EXFOR form.", "quantifier": "all products with a number of at least 2", "why_tests_cant": "all numbers and particles", "anchors": ["x4i3/exfor_particle.py:X4Particle.prettyStyle", "x4i3/exfor_particle.py:X4Particle.exforStyle"]}
{"id": "C84", "title": "A reaction printed in EXFOR form reads back", "statement": "The text that repr gives for a reaction that was read from a text can be read, and gives the same reaction: target, projectile, products, residual, process type and quantity.", "quantifier": "all reactions read from well-formed texts", "why_tests_cant": "all targets, products and residuals, including those that were computed", "anchors": ["x4i3/exfor_reactions.py:X4Reaction.__repr__", "x4i3/exfor_reactions.py:X4Process.__repr__", "x4i3/exfor_particle.py:X4Nucleus.exforStyle"]}
{"id": "C85", "title": "An entry file in EXFOR format is read as what is written in it", "statement": "For every entry written as a file in EXFOR format (frames with counters, fields with continuation lines and pointers, tables in lines of six fields of eleven characters), the object read from it has exactly the requested subentries, with the fields, texts, labels, units and numbers that are written; it is read from the file with its number, and if no subentry is requested that it contains there is no object.", "quantifier": "all entries of any number of subentries, fields, lines, columns and rows, and all requests", "why_tests_cant": "unbounded documents; the whole reading chain at once", "anchors": ["x4i3/exfor_entry.py:x4EntryFactory", "x4i3/exfor_entry.py:X4Entry.__init__", "x4i3/exfor_subentry.py:X4SubEntry.__init__", "x4i3/exfor_section.py:X4DataSection", "x4i3/exfor_section.py:X4BibSection"]}
{"id": "C86", "title": "The datasets of an entry are those written in its file", "statement": "getDataSets returns for every entry that can be read; for every subentry with a DATA table and every reaction written in its REACTION field it gives the dataset with the columns of that pointer, preceded by those of the COMMON tables of the first and of the same subentry, one row for each line of the table, and the written reaction.", "quantifier": "all entries written in EXFOR format", "why_tests_cant": "unbounded documents; the whole chain from text to datasets", "anchors": ["x4i3/exfor_entry.py:X4Entry.getDataSets", "x4i3/exfor_dataset.py:X4DataSet.setData", "x4i3/exfor_dataset.py:X4DataSetFactory", "x4i3/exfor_field.py:X4ReactionField"]}
{"id": "C87", "title": "Retrieval gives the objects and datasets that are written in the files of the database", "statement": "For a database directory whose files are written in EXFOR format, with an index that names subentries of these files, retrieve gives one object for each entry that has a subentry meeting all criteria, in increasing order; the object holds the first subentry and the subentries meeting the criteria as they are written, and its datasets are those written in the file.", "quantifier": "all databases, indices and criteria", "why_tests_cant": "unbounded databases; query, file access, parsing and datasets composed", "anchors": ["x4i3/exfor_manager.py:X4DBManagerPlainFS.query", "x4i3/exfor_manager.py:X4DBManagerPlainFS.retrieve", "x4i3/exfor_entry.py:x4EntryFactory", "x4i3/exfor_entry.py:X4Entry.getDataSets"]}
{"id": "C88", "title": "A simplified dataset gives the written energies and data in MeV, barns and degrees", "statement": "For a dataset whose table gives energies (a column of values with errors or resolutions, lower and upper limits, or both), measured values (with a total error or partial ones, or lower and upper limits; energies and values may have different errors below and above) and, for distributions, angles or outgoing energies, getSimplified gives a table with exactly these quantities in MeV, barns, particles per fission, barns per steradian, 1/MeV and degrees, row by row, followed by their uncertainties in the same units (percents of the value, half of full widths, partial errors added in quadrature); and so for the datasets retrieved from the files of a database.", "quantifier": "all tables with such columns, any units of the tables of the code, any rows, gaps included", "why_tests_cant": "all values, column orders and combinations of headings; query, file, dataset and unit conversion composed", "anchors": ["x4i3/exfor_dataset.py:X4DataSet.getSimplified", "x4i3/exfor_dataset.py:X4CrossSectionDataSet", "x4i3/exfor_dataset.py:X4NubarDataSet", "x4i3/exfor_dataset.py:X4AngularDistributionDataSet", "x4i3/exfor_dataset.py:X4EnergyDistributionDataSet", "x4i3/exfor_column_parsing.py:csDataParserList", "x4i3/exfor_column_parsing.py:incidentEnergyParserList", "x4i3/exfor_column_parsing.py:angleParserList"]}
{"id": "C89", "title": "A nucleus or isomer made from a text is the written one, and its printed forms identify it", "statement": "X4Nucleus and X4Isomer made from a text such as 94-PU-240-M2 have the charge, symbol, mass number and state that are written; the EXFOR form that is printed can be read and gives the same object; the ENDL name has three digits each for charge and mass number, followed by the state.", "quantifier": "all well-formed texts", "why_tests_cant": "all symbols, numbers and states", "anchors": ["x4i3/exfor_particle.py:X4Nucleus.__init__", "x4i3/exfor_particle.py:X4Isomer.__init__", "x4i3/exfor_particle.py:X4Nucleus.exforStyle", "x4i3/exfor_particle.py:X4Isomer.exforStyle", "x4i3/exfor_particle.py:X4Nucleus.endlZAStyle", "x4i3/exfor_particle.py:X4Isomer.endlZAStyle", "x4i3/exfor_particle.py:X4ParticleBase.asList"]}
{"id": "C90", "title": "Printed reaction and monitor fields show every measurement with its text", "statement": "A REACTION field is printed as one item for each pointer, in increasing order, with the measurement and its free text; a MONITOR field as one item for each pointer, in the order of reading, with all its monitors, from which the free text and the heading of every monitor can be read back.", "quantifier": "all REACTION and MONITOR fields", "why_tests_cant": "any number of pointers, monitors and lines; all texts", "anchors": ["x4i3/exfor_field.py:X4ReactionField.__str__", "x4i3/exfor_field.py:X4MonitorField.__str__"]}
{"id": "C91", "title": "A simplified dataset of spectrum averages gives the written temperatures in MeV", "statement": "For spectrum-averaged cross sections whose table gives the temperature of the spectrum (as KT in energy units or TEMP in Kelvin, with errors or resolutions, limits, or different errors below and above), or else an energy, getSimplified gives these in MeV and the data in barns, row by row, with their uncertainties; where both a temperature and an energy are given the temperature is taken.", "quantifier": "all tables with such columns, any units of the tables of the code, any rows", "why_tests_cant": "all values, column orders and combinations of headings", "anchors": ["x4i3/exfor_dataset.py:X4DataSet.getSimplified", "x4i3/exfor_dataset.py:X4SpectrumAveCrossSectionDataSet", "x4i3/exfor_column_parsing.py:spectrumArgumentParserList"]}
{"id": "C92", "title": "Unit conversion keeps the physical quantity", "statement": "For every unit that the conversion table knows, the converted number in the converted unit is the same physical quantity (energy, area, angle, ...) as the number in the written unit, with the units taken at their SI values.", "quantifier": "all units of the conversion table and all real values", "why_tests_cant": "all values; the sizes of the units are taken from outside the code", "anchors": ["x4i3/exfor_column_parsing.py:energyUnitConversionFactors", "x4i3/exfor_column_parsing.py:X4ColumnParser.getConversion"]}
{"id": "C93", "title": "Printed titles and free texts have exactly the written words", "statement": "The printed form of a title consists of the words written in the field in title case, and that of a free text of the words as they are written, line by line, pointer by pointer in increasing order.", "quantifier": "all TITLE and free text fields", "why_tests_cant": "any number of lines and pointers; all texts", "anchors": ["x4i3/exfor_field.py:X4PlainField.__str__", "x4i3/exfor_field.py:X4TitleField.__str__"]}
{"id": "C94", "title": "Printed tables, subentries and entries show what was read, and read back", "statement": "The text that str gives for a DATA or COMMON section, a BIB section, a subentry or an entry shows every table and every field of every subentry, in the order of the file within a subentry and by increasing accession number; and reading the text gives the same object again.", "quantifier": "all sections, subentries and entries", "why_tests_cant": "any number of rows, fields and subentries; all numbers", "anchors": ["x4i3/exfor_section.py:X4DataSection.__str__", "x4i3/exfor_section.py:X4BibSection.__str__", "x4i3/exfor_subentry.py:X4SubEntry.__str__", "x4i3/exfor_entry.py:X4Entry.__str__"]}
{"id": "C95", "title": "get-entry prints what is written in the database for the requested number", "statement": "The program get-entry lists the subentries of the requested entry; for a requested subentry it prints its raw text, its DATA table, and the documentation of the entry as they are written in the file of the database, with an error for a number that is malformed or absent.", "quantifier": "all databases and requests", "why_tests_cant": "unbounded databases; index, file access, parsing and printing composed", "anchors": ["examples/get-entry.py:process_args", "x4i3/exfor_manager.py:X4DBManagerPlainFS.retrieve", "x4i3/exfor_entry.py:x4EntryFactory"]}
{"id": "C96", "title": "plotX4 plots the cross sections that are found", "statement": "The program plotX4 calls xmgrace with the simplified cross sections of the requested isotope and reaction whenever the database has any.", "quantifier": "all databases, isotopes and reactions", "why_tests_cant": "unbounded databases", "anchors": ["examples/plotX4.py:subents", "x4i3/exfor_entry.py:X4Entry.__init__"]}
{"id": "C97", "title": "What cannot be read is reported by its own exception, and nothing else fails", "statement": "Reading an entry file fails exactly if a field or a number of a requested subentry cannot be read; the exception is that of the first such thing in the file: BrokenNumberError with the text of the cell, ReactionParsingError, InstituteParsingError or AuthorParsingError for a field. References that cannot be read do not make reading fail. A query fails if something in a subentry that it finds, or in the first subentry of its entry, cannot be read.", "quantifier": "all entries in EXFOR format, requests, databases and queries", "why_tests_cant": "unbounded documents; which of several errors comes first", "anchors": ["x4i3/exfor_entry.py:X4Entry.__init__", "x4i3/exfor_section.py:X4BibSection", "x4i3/exfor_section.py:X4DataSection", "x4i3/exfor_utilities.py:parseFORTRANNumber", "x4i3/exfor_field.py:X4ReactionField", "x4i3/exfor_field.py:X4AuthorField", "x4i3/exfor_field.py:X4InstituteField", "x4i3/exfor_field.py:X4ReferenceField"]}
{"id": "C98", "title": "A MONITOR field is read as the monitors written in it", "statement": "For every pointer of a MONITOR field, reading gives one monitor for each code that is written under this pointer, in the order of writing, with the column heading and the reaction or combination of the code, and the free text after it; a code that cannot be read makes the field fail with ReactionParsingError.", "quantifier": "all MONITOR fields whose codes begin at the margin, on one line or broken into two", "why_tests_cant": "any number of pointers, monitors and lines of free text; all reactions of the grammar", "anchors": ["x4i3/exfor_field.py:X4MonitorField.__init__"]}
{"id": "C99", "title": "The equation of a REACTION field shows the written combination, and the reaction list fills in the schematic one", "statement": "getEquation of a REACTION field gives, for each pointer, the combination as written with its operators and parentheses, each reaction by its text or, schematically, by a name rxn 0, rxn 1, ... from left to right; putting the reactions of getX4ReactionList in place of the names gives the written combination again.", "quantifier": "all REACTION fields and combinations of any nesting", "why_tests_cant": "unbounded nesting and numbers of reactions", "anchors": ["x4i3/exfor_field.py:X4ReactionField.getEquation", "x4i3/exfor_field.py:X4ReactionField.getX4ReactionList"]}
{"id": "C100", "title": "A dataset gives the written cell, label and unit, and its repr lists them", "statement": "numrows and numcols are the numbers of rows and columns; ds[i,j], ds['LABELS',j] and ds['UNITS',j] give the value, heading and unit that are written there, with negative numbers counting from the end, and IndexError or KeyError otherwise; repr ends with a Python list literal of the labels, the units and all rows.", "quantifier": "all datasets, all integers as indices", "why_tests_cant": "unbounded tables; all index pairs", "anchors": ["x4i3/exfor_dataset.py:X4DataSet.__getitem__", "x4i3/exfor_dataset.py:X4DataSet.numcols", "x4i3/exfor_dataset.py:X4DataSet.numrows", "x4i3/exfor_dataset.py:X4DataSet.__repr__", "x4i3/exfor_dataset.py:X4DataSet.reprHeader"]}
{"id": "C101", "title": "The written residual is the residual of the reaction", "statement": "If a reaction text names a residual nucleus behind the parentheses, the residual of the reaction object is this nucleus in the state that is written, and the products are those inside the parentheses.", "quantifier": "all well-formed reaction texts with a residual nucleus", "why_tests_cant": "all targets, projectiles, numbers of products and isomeric states", "anchors": ["x4i3/exfor_reactions.py:X4Process.setResidual", "x4i3/exfor_reactions.py:X4Process.setProduct"]}
{"id": "C102", "title": "The code of a reaction may be continued on further lines at parentheses and commas", "statement": "The lines of a field are put together with blanks. Blanks next to the parentheses and commas of a text do not change how it is read: it fails in the same way, or gives the same measurement and the same free text up to blanks. A code that is continued on further lines after or before a parenthesis or comma, with free text behind it, is read exactly as if it stood on one line.", "quantifier": "all texts without tabs, with any number of blanks inserted; all reactions and combinations of the grammar on any number of lines", "why_tests_cant": "the grammar tries alternatives and takes the longest match, so a blank anywhere could change the outcome; unbounded texts", "anchors": ["x4i3/exfor_field.py:X4ReactionField.__init__", "x4i3/exfor_field.py:X4SubField.__str__", "x4i3/exfor_field.py:X4MonitorField.__init__", "x4i3/exfor_grammers.py:x4reactionfield", "x4i3/pyparsing3.py:Or"]}
{"id": "C103", "title": "The dictionary server gives the contents of the files that are there", "statement": "A listed dictionary is read from the file with its number, whether it is asked for by number or by name; a missing file gives None and a key that is not listed raises TypeError. getAllDictionaries holds, under the name of every listed dictionary whose file is there, what this file contains, and nothing else; it fails exactly if a file that is there cannot be read, with the exception of the first such file.", "quantifier": "all directories of dictionary files, all keys", "why_tests_cant": "all files and contents; which of several errors comes first", "anchors": ["x4i3/exfor_dicts.py:X4DictionaryServer.getDictionary", "x4i3/exfor_dicts.py:X4DictionaryServer.getAllDictionaries"]}
{"id": "C104", "title": "The EXFOR form of BIB sections, subentries and entries keeps what was read", "statement": "The text repr gives for a BIB section, read again, gives the same section; the text repr gives for a subentry, read again, gives the same sections in the same order. The text of a subentry holds BIB, COMMON and DATA in this order; that of an entry holds every subentry once, by increasing accession number, and exists exactly if the text of every subentry does. (The accession number is C14, a single table is C04.)", "quantifier": "all BIB sections, subentries and entries that were read and can be printed", "why_tests_cant": "all combinations of fields, pointers and tables; what the printed columns are read as", "anchors": ["x4i3/exfor_section.py:X4BibSection.__repr__", "x4i3/exfor_subentry.py:X4SubEntry.__repr__", "x4i3/exfor_entry.py:X4Entry.__repr__", "x4i3/exfor_field.py:X4PlainField.__repr__"]}
{"id": "C105", "title": "The mean of two columns is taken row by row", "statement": "averageColumns of two columns of the same length gives, in every row, the mean of the two numbers, the only number if one is missing, and None if both are; heading and unit are kept.", "quantifier": "all pairs of columns of real numbers", "why_tests_cant": "all lengths and all combinations of missing values", "anchors": ["x4i3/exfor_column_parsing.py:averageColumns"]}
{"id": "C106", "title": "The readable text of a reaction names its type and all its parts", "statement": "str of a reaction gives the reaction type, ' for ', and target(projectile,products)residual with readable names: nuclei as mass number and symbol with the isomeric state between them, natural elements with nat, compounds as in the dictionary, particles and channels by their names, several particles with their number; nothing that is written is lost, and different nuclei and states have different names.", "quantifier": "all well-formed reaction texts, all dictionaries", "why_tests_cant": "all combinations of targets, projectiles, products, residuals and isomeric states; any number of products", "anchors": ["x4i3/exfor_reactions.py:X4Process.__str__", "x4i3/exfor_reactions.py:X4Process.setProcessType", "x4i3/exfor_reactions.py:X4Reaction.__str__", "x4i3/exfor_particle.py:X4Particle.prettyStyle"]}
{"id": "C107", "title": "The messages about datasets that could not be made name the subentry, the pointer and the cause", "statement": "After getDataSets, the errors of an entry hold exactly one message for each subentry with data and each pointer whose reaction (its own, or else that of the first subentry) is a combination of different quantities, ending with the readable text of this combination, or whose table is too short (IndexError). getSimplifiedDataSets adds, for each dataset that it cannot simplify, a message that begins with the class of the exception and names the missing column or the unreadable number; different causes give different messages. Recording messages does not change the datasets.", "quantifier": "all entries in EXFOR format and all reactions", "why_tests_cant": "any number of subentries, pointers and datasets, all causes of failure", "anchors": ["x4i3/exfor_entry.py:X4Entry.getDataSets", "x4i3/exfor_entry.py:X4Entry.getSimplifiedDataSets", "x4i3/exfor_dataset.py:X4DataSetFactory", "x4i3/exfor_exceptions.py:NoValuesGivenError"]}
{"id": "C108", "title": "A text field is cut into a chunk for every code", "statement": "chunkifyX4TextField gives one chunk for each code in parentheses, in the order of writing, with the words of the code and those of the text behind it.", "quantifier": "all lists of codes with texts", "why_tests_cant": "unbounded texts; the grammar tries several forms of a code", "anchors": ["x4i3/exfor_field.py:chunkifyX4TextField", "x4i3/exfor_grammers.py:x4textfield"]}
{"id": "C109", "title": "The pointer of a field is that of its first text", "statement": "extractX4FieldPointer gives the character in the pointer column of the first line of a field, None if it is blank, and the field that is read from these lines begins with the texts under this pointer.", "quantifier": "all fields", "why_tests_cant": "any number of lines, all characters", "anchors": ["x4i3/exfor_field.py:extractX4FieldPointer", "x4i3/exfor_field.py:X4PlainField.__init__"]}
{"id": "C110", "title": "Printed tables can be read back by columns", "statement": "In every line that prettyprint_table prints, the cells of the row are found in columns of the given width, separated by one blank.", "quantifier": "all tables of texts and all widths", "why_tests_cant": "any number of rows and columns, all texts", "anchors": ["x4i3/exfor_utilities.py:prettyprint_table"]}
{"id": "C111", "title": "A manager reads the given index and directory, and the base class nothing", "statement": "A database manager uses the index file and the directory it is given, or the installed ones; other settings reach SQLite unchanged. Objects of the base class raise NotImplementedError for every query, and KeyError for numbers that are not of 5 or 8 characters. The tables of letters for the first digits of accession numbers are inverse to each other.", "quantifier": "all settings, criteria and keys", "why_tests_cant": "all combinations of settings; the installed database is not part of the tests", "anchors": ["x4i3/exfor_manager.py:X4DBManagerPlainFS.__init__", "x4i3/exfor_manager.py:X4DBManager.query", "x4i3/exfor_manager.py:X4DBManager.retrieve", "x4i3/exfor_manager.py:X4DBManager.__getitem__", "x4i3/exfor_manager.py:EntryLetterConversion"]}
{"id": "C112", "title": "Floating-point arithmetic changes simplified datasets only by rounding", "statement": "With IEEE doubles instead of exact numbers, getDataSets gives the same datasets with every number rounded once, and getSimplified the same headings, units, attributes, missing entries and exceptions; every number of the result differs from the exact one by at most 1e-14 times the sum of its magnitude and twice the largest magnitude in its row (in converted units). Converted columns have a relative error of nine roundings at most. No uncertainty is negative.", "quantifier": "all datasets of the classes with a simplification, all tables, all roundings with a bounded relative error (no overflow and underflow)", "why_tests_cant": "all numbers; an accumulation of errors or a cancellation shows only for special values", "anchors": ["x4i3/exfor_column_parsing.py:X4ColumnParser.getColumn", "x4i3/exfor_column_parsing.py:X4HighLowColumnPair", "x4i3/exfor_column_parsing.py:X4AddErrorBarsColumnPair", "x4i3/exfor_dataset.py:X4DataSet.getSimplified", "x4i3/exfor_entry.py:X4Entry.getSimplifiedDataSets"]}
{"id": "C113", "title": "Reading a code neither invents characters nor changes their order", "statement": "The names of authors are, apart from separators (white space, parentheses, commas) and the case of letters, the beginning of the text they were read from; the codes and comments of institutes and the parts of references consist of characters of the text in their order. The symbols and numbers of the particles of a reaction, its quantity and the free text (dashes and plus signs aside) follow each other as in the text, of which everything up to the end of a line is used; the same holds for all reactions and operators of a combination.", "quantifier": "all texts that can be read, all dictionaries", "why_tests_cant": "all texts, also those that the format does not allow and that are read anyway", "anchors": ["x4i3/exfor_field.py:X4AuthorField", "x4i3/exfor_field.py:X4InstituteField", "x4i3/exfor_field.py:X4ReferenceField", "x4i3/exfor_field.py:X4ReactionField", "x4i3/exfor_reactions.py:X4Process.setParticleType", "x4i3/exfor_reactions.py:X4ReactionCombination"]}
{"id": "C114", "title": "A simplified row depends on its own row only", "statement": "If two datasets of the same class have the same headings and a row in common, their simplified forms give the same values and uncertainties for this row, at whatever place it is and whatever the other rows are. Leaving out rows or changing their order does not make the simplification fail, unless no value (or required uncertainty) is left. Appending datasets and simplifying gives the same as simplifying and appending.", "quantifier": "all datasets of the classes with a simplification, all tables and rows", "why_tests_cant": "any number of rows, all columns and units; it relates different runs", "anchors": ["x4i3/exfor_dataset.py:X4DataSet.getSimplified", "x4i3/exfor_dataset.py:X4DataSet.append", "x4i3/exfor_column_parsing.py:X4ColumnParser.getColumn", "x4i3/exfor_column_parsing.py:X4IndependentColumnPair"]}
{"id": "C115", "title": "The datasets of a subentry depend on it and on the first subentry only", "statement": "If the datasets (or simplified datasets) of a whole entry can be made, they can be made from its first subentry and any selection of the others, as retrieve reads them for a query; each selected subentry gives the same datasets and the same errors as in the whole entry, and the others give none. Two entries with the same number that agree in the first subentry and in another one give the same datasets for it. Without the first subentry getDataSets raises KeyError.", "quantifier": "all entry files in EXFOR format, all selections of subentries, all queries", "why_tests_cant": "it relates different runs on different selections of any number of subentries", "anchors": ["x4i3/exfor_entry.py:x4EntryFactory", "x4i3/exfor_entry.py:X4Entry.getDataSets", "x4i3/exfor_entry.py:X4Entry.getSimplifiedDataSets", "x4i3/exfor_manager.py:X4DBManagerPlainFS.retrieve"]}
{"id": "C116", "title": "The bibliographic attributes of a dataset are the written ones", "statement": "Authors, institute, reference, year and type of publication and title of a dataset are what the fields of its own subentry say, and where there is no such field, what those of the first subentry say; where neither has the field there is none. The number of the subentry is its own.", "quantifier": "all entry files in EXFOR format, all selections of subentries, all datasets", "why_tests_cant": "all combinations of fields in two subentries, all texts in them", "anchors": ["x4i3/exfor_dataset.py:X4DataSet.__init__", "x4i3/exfor_section.py:X4BibMetaData", "x4i3/exfor_entry.py:X4Entry.getDataSets", "x4i3/exfor_field.py:X4TitleField"]}
{"id": "C117", "title": "A simplified dataset depends neither on the places of the columns nor on other columns", "statement": "Two datasets of the same class with the same columns of interest (energy, temperature, angle, data, and their uncertainties and limits) give the same simplified table, or the same exception, whatever the order of these columns and whatever other columns there are. For entries: neither the order of the columns in the file matters, nor whether a quantity that is the same in all rows stands in the COMMON table of the first subentry, in that of the subentry, or in the DATA table, nor columns of other pointers.", "quantifier": "all datasets of the classes with a simplification, all orders of columns; all entry files in EXFOR format", "why_tests_cant": "all permutations of any number of columns, with further columns anywhere; it relates different runs", "anchors": ["x4i3/exfor_dataset.py:X4DataSet.getSimplified", "x4i3/exfor_dataset.py:X4DataSet.setData", "x4i3/exfor_column_parsing.py:X4ColumnParser.firstMatch", "x4i3/exfor_column_parsing.py:X4ColumnParser.getColumn", "x4i3/exfor_column_parsing.py:condenseColumn"]}
{"id": "C118", "title": "A simplified dataset does not depend on the units in which the quantities are given", "statement": "Two datasets of the same class whose columns of interest have the same headings and the same physical quantities, in whatever units of the same kind, give the same simplified table (headings, units and numbers, in exact arithmetic), or the same exception. For entries: the same holds for the units written in the file, together with the order and places of the columns.", "quantifier": "all datasets of the classes with a simplification, all quantities and units; all entry files in EXFOR format", "why_tests_cant": "all numbers and all pairs of units, in all columns together; it relates different runs", "anchors": ["x4i3/exfor_column_parsing.py:getConversion", "x4i3/exfor_column_parsing.py:X4ColumnParser.getColumn", "x4i3/exfor_column_parsing.py:X4ColumnParser.isMatch", "x4i3/exfor_dataset.py:X4DataSet.getSimplified"]}
{"id": "C119", "title": "A simplified dataset does not depend on whether uncertainties are given in percent", "statement": "Two datasets of the same class that differ only in that uncertainties (or resolutions) of energies, temperatures, angles or data are given in percent of the quantity in the one and in a unit of the same kind as the quantity in the other give the same simplified table (headings, units and numbers, in exact arithmetic), or the same exception. The same holds for entries in which they are written so.", "quantifier": "all datasets of the classes with a simplification, all quantities, percentages and units, any selection of the columns for uncertainties; all entry files in EXFOR format", "why_tests_cant": "all numbers, missing values and combinations of columns; it relates different runs", "anchors": ["x4i3/exfor_column_parsing.py:X4IndependentColumnPair", "x4i3/exfor_column_parsing.py:X4AddErrorBarsColumnPair", "x4i3/exfor_column_parsing.py:X4HighMidLowColumnPair", "x4i3/exfor_dataset.py:X4DataSet.getSimplified"]}
{"id": "C120", "title": "An entry does not depend on how it is laid out in its file", "statement": "Two files with the same subentries give the same entry object, or fail in the same way, and hence the same datasets, whatever stands after the accession numbers, in the counters of BIB, END, NOCOMMON and NODATA lines, whether these two are there at all, in the second counter of COMMON and DATA lines if it counts the rows, the rows with the two heading rows, or the lines, after column 66 (of bibliographic lines other than authors, and of tables with at most six columns), between the subentries (such as NOSUBENT lines), wherever the cells of a table stand within their eleven columns, and whether lines end with blanks. For wider tables blanks after column 66 do change the numbers that are read, and for authors a remark after column 66 does. A table with any other count is not read.", "quantifier": "all entries in EXFOR format, all pairs of layouts, all selections of subentries, all grammars", "why_tests_cant": "all texts in the free places of any number of lines; it relates different runs", "anchors": ["x4i3/exfor_entry.py:X4Entry.__init__", "x4i3/exfor_entry.py:x4EntryFactory", "x4i3/exfor_section.py:X4DataSection.__init__", "x4i3/exfor_section.py:X4BibSection.chunkify", "x4i3/exfor_field.py:X4PlainField.__init__", "x4i3/exfor_field.py:X4AuthorField"]}
{"id": "C121", "title": "A database does not depend on how its files are laid out", "statement": "Two databases with the same index, whose entry files have the same contents in whatever layouts, give the same objects for every query and for every key, or fail in the same way; what is found by criteria without wildcards holds what is written in the files; and the program get-entry prints the same with all options, except with those two that together make it read the plain text of the file.", "quantifier": "all indexes, all pairs of directories, all criteria (also with wildcards), keys and options, all grammars", "why_tests_cant": "all layouts of any number of files and all queries; it relates different runs", "anchors": ["x4i3/exfor_manager.py:X4DBManagerPlainFS.retrieve", "x4i3/exfor_manager.py:X4DBManager.__getitem__", "x4i3/exfor_entry.py:x4EntryFactory", "examples/get-entry.py:process_args"]}
{"id": "C122", "title": "Quotes in search texts must be doubled", "statement": "If every quote in the texts of a query is written twice, the query gives exactly the subentries whose index rows have the texts with single quotes (together with the other criteria, and the first subentry of each entry). If the texts of a query have an odd number of quotes altogether, as for a name with an apostrophe given as it is, the query raises OperationalError for every index. (Texts are without NUL characters; in the second part also without what begins a comment, a quoted name or a further statement in SQL.)", "quantifier": "all indexes without missing subentry numbers, all criteria and combinations of them", "why_tests_cant": "all texts with any number of quotes in any of the criteria, all tables", "anchors": ["x4i3/exfor_manager.py:X4DBManagerPlainFS.query", "x4i3/exfor_manager.py:X4DBManager.run_sql_query"]}
{"id": "C123", "title": "Searches ignore the case of letters and find what is in the index", "statement": "Changing the case of letters in the author, target, reaction, projectile or quantity of a search changes neither its result nor what is retrieved. A subentry is found by the values in its own row of the index, by one of them or several at once, in whatever case they are given.", "quantifier": "all indexes, all criteria and combinations of them, all ways to change the case of any letters", "why_tests_cant": "all texts, all indexes; it relates different searches", "anchors": ["x4i3/exfor_manager.py:X4DBManagerPlainFS.query", "x4i3/exfor_manager.py:X4DBManagerPlainFS.retrieve"]}
{"id": "C124", "title": "Wildcards in searches", "statement": "In a reaction that contains an asterisk, the asterisk and the percent sign stand for any text (also none) and the underscore for any one character, without regard to case; in all other reactions and in all other criteria these characters stand for themselves. With this reading a query gives exactly the subentries with a row of the index that satisfies all criteria, for all texts (quotes written twice as in C122), and retrieve gives the objects that hold these subentries and the first one of each entry as they are written in the files.", "quantifier": "all indexes without missing subentry numbers, all databases in EXFOR format, all criteria and combinations of them", "why_tests_cant": "all patterns and texts of any length", "anchors": ["x4i3/exfor_manager.py:X4DBManagerPlainFS.query", "x4i3/exfor_manager.py:X4DBManagerPlainFS.retrieve"]}
{"id": "C125", "title": "Datasets without readable columns for a quantity are reported as such", "statement": "A dataset whose table has no column with a known heading and a known unit for one of the quantities of its class (energies, angles, outgoing energies, data) is never simplified, whatever the numbers and the other columns are. If the energies are missing, NoValuesGivenError says Energy; if the energies are given and angles or outgoing energies are missing it says Angle or E'; if only the data are missing it says Data. Energy distributions in barns per unit of energy are always among them.", "quantifier": "all datasets of the classes with a simplification, all tables, all options", "why_tests_cant": "all headings, units and numbers, any number of columns and rows", "anchors": ["x4i3/exfor_dataset.py:X4DataSet.getSimplified", "x4i3/exfor_column_parsing.py:X4ColumnParser.isMatch", "x4i3/exfor_column_parsing.py:X4ColumnParser.firstMatch", "x4i3/exfor_column_parsing.py:condenseColumn"]}
{"id": "C126", "title": "From a search to simplified quantities", "statement": "A search with any criteria (wildcards included) in a directory of EXFOR files in whatever layout finds the entries with a subentry that meets them, each with its first subentry and those that meet them. The dataset of such a subentry has the reaction, columns, units and numbers that are written in the file, with the columns of the COMMON tables first. Its simplified dataset, for cross sections, spectrum averages, neutron multiplicities, angular and energy distributions, holds the quantities in common units that the headings and units in the file say; if there is no readable column for one of them it is not simplified, and NoValuesGivenError says Energy if that is missing. In double precision each number comes out within 1e-14 of the exact one (relative to it and to the largest in its row).", "quantifier": "all directories and indexes, all criteria, all entries, subentries and pointers, all five classes with a simplification, all options", "why_tests_cant": "all databases, searches, layouts and tables at once; the tests follow a few datasets of stored files", "anchors": ["x4i3/exfor_manager.py:X4DBManagerPlainFS.retrieve", "x4i3/exfor_entry.py:X4Entry.getDataSets", "x4i3/exfor_dataset.py:dataSetFactory", "x4i3/exfor_dataset.py:X4DataSet.getSimplified"]}
{"id": "C127", "title": "Changes of one entry of a database do not affect the others", "statement": "What a search finds of an entry, and the object it gives for it, depends only on the rows of the index for this entry and on its file, whatever else is in the database and in whatever order, also with rows that occur several times. After any change of the rows and the file of one entry a search that succeeded before gives the same objects for all other entries, or it fails because the changed entry is found and cannot be read. If the entry is removed from the index the search gives the same without it, whatever becomes of the file.", "quantifier": "all indexes, directories, criteria (also with quotes or wildcards) and changes", "why_tests_cant": "all pairs of databases and all searches; it relates runs before and after a change", "anchors": ["x4i3/exfor_manager.py:X4DBManagerPlainFS.query", "x4i3/exfor_manager.py:X4DBManagerPlainFS.retrieve", "x4i3/exfor_manager.py:X4DBManager.run_sql_query", "x4i3/exfor_entry.py:x4EntryFactory"]}
{"id": "C128", "title": "Line ends of the files do not matter", "statement": "The lines that are read from a file are those its bytes hold, one character for each byte, whether they end in LF, in CR LF or in CR, also mixed, and whether or not the last line ends. Two databases that differ in line ends only, such as after copying between systems, give the same for every search, key and entry. A search in a directory given by bytes with any line ends and any layout finds what is written in it.", "quantifier": "all files (sequences of bytes), directories, indexes and criteria", "why_tests_cant": "all sequences of bytes of any length; it relates different databases", "anchors": ["x4i3/exfor_entry.py:x4EntryFactory", "x4i3/exfor_manager.py:X4DBManagerPlainFS.retrieve", "x4i3/exfor_manager.py:X4DBManager.__getitem__"]}
{"id": "C129", "title": "Calls on one entry object do not disturb each other", "statement": "Whatever has been asked of an entry before (datasets, simplified datasets, metadata, any number of times and in any order), asking for datasets, simplified datasets or metadata gives the same as at the first time, or raises the same exception. After every call the recorded errors are those of this call.", "quantifier": "all entries, all grammars, all sequences of calls", "why_tests_cant": "sequences of any length on objects that the calls change", "anchors": ["x4i3/exfor_entry.py:X4Entry.getDataSets", "x4i3/exfor_entry.py:X4Entry.getSimplifiedDataSets", "x4i3/exfor_entry.py:X4Entry.meta", "x4i3/exfor_section.py:X4BibMetaData"]}
