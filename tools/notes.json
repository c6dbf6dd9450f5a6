{
 "C02": {
  "status": "proved",
  "note": "number of rows is max(numrows,0); C02_negative_numrows shows that numrows itself can be -1 for an inconsistent 7-column header"
 },
 "C04": {
  "note": "proved for 1..6 columns; false for more than 6 columns (C04_wide_refuted: never round-trips)"
 },
 "C05": {
  "note": "proved for up to 6 columns (one physical line per row); false for more (C05_wide_refuted)"
 },
 "C06": {
  "note": "proved when labels are distinct; false with duplicated labels (C06_refuted)"
 },
 "C61": {
  "note": "symmetry, reflexivity, pointwise lifting proved; closeness is false when a+b=0 (C61_closeness_refuted) and proved otherwise"
 },
 "C14": {
  "note": "false of the code: C14_subentry_refuted and C14_entry_refuted (the accession number is printed in other columns than it is read from); C14_subentry_partial says what re-parsing does yield"
 },
 "C15": {
  "note": "false of the code: deleted() looks for the word among pointer keys and always answers False (C15_never_deleted, C15_refuted); only the 'not deleted -> False' half holds"
 },
 "C37": {
  "note": "proved for pointers that are printable characters (not below blank); C37_control_pointer_refuted shows that it fails for a control character as pointer"
 },
 "C42": {
  "note": "no text is lost; the entry decomposition is proved when a code with a single opening parenthesis is balanced on its line; C42_refuted shows that otherwise the next line is cut into characters"
 },
 "C16": {
  "note": "false of the code for sections without TITLE (C16_refuted: after meta() the section cannot be printed); proved for sections with a title, and in general that only the title is touched and that a second read changes nothing. For entries and sequences of calls: C16_calls_partial (nothing changes if all BIB sections have titles), C16_lookup_partial (all entries: only TITLE fields of BIB sections can change), C16_datasets_refuted and C16_text_refuted (for every entry that has a subentry with data and a BIB section without a title, repr and str raise an exception after getDataSets), C16_metadata_refuted and C16_metadata_partial (the same for meta, depending on the first subentry). C16_exceptions_partial: C16_calls_partial for calls that raise exceptions"
 },
 "C41": {
  "note": "proved for printable sections with distinct tags; C41_no_author_refuted: a section without author list raises AttributeError when printed; C41_repeated_tag_refuted: counters wrong for repeated tags"
 },
 "C28": {
  "note": "proved for all units but cosines; false for cosines (C28_cosine_refuted: a percent uncertainty of a cosine is taken as a percentage of the angle in degrees)"
 },
 "C31": {
  "note": "proved when the unit-bearing columns are not mixed with percent columns; false otherwise (C31_mixed_refuted)"
 },
 "C33": {
  "note": "false of the code for every dataset meeting the hypotheses (C33_refuted is universal); C33_formula_partial: the formula itself divides by the square root of the energy in eV, if energies were found"
 },
 "C34": {
  "note": "false of the code for cosines (C34_refuted is universal: zero uncertainty of a cosine becomes 90 degrees); holds for angles in other units (C34_angle_partial)"
 },
 "C19": {
  "note": "Proved for a DATA section read from text and two distinct COMMON objects of one row each, whose columns carry no pointer or that of the dataset (C19_aligned_partial). False otherwise: C20_common_refuted (columns of other pointers), C21_refuted (several rows), C19_same_object_refuted (when the DATA section is in the first subentry, the two COMMON sections are one object and the second copy of its columns stays zero)."
 },
 "C20": {
  "note": "Holds for DATA with distinct labels and COMMON columns that carry no pointer or that of the dataset (C20_selection_partial); false for every DATA section with a repeated label that has a pointer (C20_repeated_label_refuted), and for every one-row COMMON section with columns of other pointers (C20_common_refuted)."
 },
 "C21": {
  "note": "C21_rows_partial: dataset row i takes COMMON row i while there is one. C21_refuted: for every such section the remaining rows get zeros."
 },
 "C17": {
  "note": "C17_values gives the exact contents for every entry read from text. C17_exact_partial is the claim for pointers that are not in both REACTION fields; C17_refuted shows that otherwise a dataset and a recorded error may share a key."
 },
 "C18": {
  "note": "C18_same_keys and C18_escape prove the claim; C18_value_error_refuted shows that unhandled exceptions (ValueError) do occur, in which case no dataset at all is returned.",
  "status": "proved"
 },
 "C24": {
  "note": "C24_partial: holds when the dataset is actually condensed. False in the other cases (C24_sort_refuted, C24_append_refuted): copy.copy shares the row list."
 },
 "C36": {
  "note": "Proved for two distinct objects with reactions that can be printed (C36_blank, C36_compatible, C36_incompatible, C36_sequence). Refuted corner cases: no reaction (TypeError), a reaction that cannot be printed, appending a dataset to itself (never ends).",
  "status": "partial"
 },
 "C43": {
  "note": "Other digit characters: C43_superscript (ValueError instead of TypeError). Other lengths are returned as they are or fail: C43_other_lengths."
 },
 "C56": {
  "note": "Lookup functions only; the table of names is copied from the code."
 },
 "C57": {
  "note": "C57_file is the property; C57_independent holds for all lines; C57_blank_key shows why keys must not be blank."
 },
 "C58": {
  "note": "The table is copied from the code by tools/tables.py. C58_capitalized: the symbols stop being distinct when capitalised (n/N)."
 },
 "C59": {
  "note": "Lookup over the table of the code; values as exact rationals of the literals."
 },
 "C53": {
  "note": "C53_partial / C53_process_partial: whenever a residual is computed and no chemical compound is involved, charge and mass number balance (natural elements count as mass number -3000). C53_scattering, C53_defined, C53_natural (no residual for natural elements and compounds as targets), C53_unknown (no residual if charges are unknown). False without the provisos: C53_annihilation_refuted (antiproton on hydrogen), C53_compound_refuted, C53_element_refuted (natural element as product: helium with mass number 3059)."
 },
 "C54": {
  "note": "C54_case: lookup does not depend on upper or lower case. C54_partial: every code of dictionary 33 with a known charge and mass gives that particle. False for 'XR' and 'B+' (C54_XR_refuted, C54_Bplus_refuted). C54_physical: the light particles have their physical charge and mass number."
 },
 "C55": {
  "note": "C55_partial: for one descriptor, no nucleus among the products and isomer numbers up to 5, repacking gives exactly the text of the combination; C55_field_partial: the whole field then gives that combination. False otherwise: C55_descriptors_refuted (further descriptors are dropped, for all reactions), C55_nucleus_refuted, C55_number_refuted. C55_nested_partial: the same inside combinations of any nesting."
 },
 "C64": {
  "note": "C64_parse (words), C64_object (charges, mass numbers, quantity; C101 for residual and products). C64_ambiguous shows why a nucleus followed by '+T' is excluded."
 },
 "C65": {
  "note": "C65_parse (words and free text), C65_reaction, C65_combination, C65_reactions (list of reactions)."
 },
 "C44": {
  "note": "C44_query, C44_nodup: for every table and criteria for which the statement can be executed; the model covers the SQL that the code generates."
 },
 "C45": {
  "note": "C45_partial: for plain texts (no quotes, wildcards or control characters) the result is exactly the conjunction; C45_shrink. False otherwise: C45_injection_refuted, C45_apostrophe_refuted (a name with an apostrophe is a syntax error), C45_wildcard_refuted (_ and % are wildcards)."
 },
 "C46": {
  "note": "C46_ignored and C46_empty, for all arguments."
 },
 "C47": {
  "note": "C47_retrieve for well-formed entry files, C47_succeeds: exactly when the files named can be read. C47_parsed: the parsed result is built from exactly the raw result."
 },
 "C48": {
  "note": "C48_getitem and C48_setitem for all keys; C48_contains_partial for entries. False for subentries: C48_contains_refuted (TypeError for every 8-character key)."
 },
 "C49": {
  "note": "C49_refuted: false whenever the query names an entry and the files are there and not empty (the cache holds byte strings, so the memory-cached manager raises TypeError). C49_partial: the managers agree if the query fails, finds nothing, or names empty files."
 },
 "C50": {
  "note": "C50_fresh is the property when no scan failed before; C50_retry, C50_history, C50_snapshot_partial for histories with failed scans. The clause on missing files is false after a failed scan: C50_stale_refuted."
 },
 "C51": {
  "note": "C51_crash, over all reachable states of the transition system. C51_truncated and C51_tag_member show that the conditions on the server and the archive are needed. The presence check itself is commented out in the code at this commit."
 },
 "C52": {
  "note": "C52_refuted: after every failed download nothing is left of the previous database; C52_possible_refuted: this can happen to every database. C52_frame_partial: foreign files are untouched."
 },
 "C66": {
  "note": "C66_reference_partial and C66_tautology_partial: for printable ASCII text without quotation marks whose inner parentheses are not nested and contain one word each, and which does not begin with a parenthesis. False in general: C66_refuted (of an inner parenthesis with several words only the first is kept). C66_names, C66_reports: the printed names, for all dictionaries."
 },
 "C67": {
  "note": "C67_authors_partial: for printable ASCII text without quotation marks and inner parentheses; C67_case_only. False in general: C67_apostrophes_refuted (two names with an apostrophe), C67_line_break_refuted (a name broken between lines loses the blank). C67_unclosed: the closing parenthesis may be missing. C67_printed: the text of the field. C67_field_partial: an AUTHOR field holds the authors of all its pointers, in order."
 },
 "C68": {
  "note": "C68_institutes_partial: one code per pair of parentheses, words of the grammar's characters only. False in general: C68_comma_refuted (for all codes separated by a comma only one institute, with the name of the last), C68_punctuation_refuted (any other character ends the list). C68_field_partial: an INSTITUTE field holds the institutes of all its pointers, in order."
 },
 "C69": {
  "note": "C69_pubtypes_partial: all listed types except 0, 3 and 4; C69_words_partial: which words belong to which type; C69_pubtypes_refuted: for these every field raises KeyError."
 },
 "C70": {
  "note": "C70_main_partial: when all references of the field can be read (in the sense of C66). C70_main_refuted: one further reference that consists of a single item is enough to lose all attributes. C70_code_refuted: so is one with a date that is no number or with an unknown type. C70_kept_partial: of several names for one reference those before the one that cannot be read are kept. C70_kept_field_partial: the same for the whole field."
 },
 "C71": {
  "note": "C71_family_partial: what follows the last period. C71_family_refuted: empty for every name that ends in a period (such as 'JONES JR.')."
 },
 "C72": {
  "note": "C72_named_partial: for sections whose AUTHOR and REFERENCE fields can be read. C72_no_author_refuted: without AUTHOR the characters of 'None' are taken for authors; C72_no_reference_refuted: without REFERENCE citation raises AttributeError."
 },
 "C73": {
  "note": "C73_roundtrip_partial: for codes with at least one detail between name and date. C73_no_details_refuted: otherwise an empty item is added."
 },
 "C74": {
  "note": "C74_first_section_partial: for all entries (the citation if the text '?????.???' does not occur in it). C74_subentries: the listed accession numbers, for all entries that were read. The last clause is false: C74_deleted_refuted, no entry is ever reported as deleted."
 },
 "C75": {
  "note": "C75_comments, for all datasets; the texts of reactions, monitors and numbers are parameters."
 },
 "C76": {
  "note": "C76_columns_partial: for texts of at most 13 characters without blanks. C76_columns_refuted: every longer text runs into the next cell."
 },
 "C77": {
  "note": "C77_frame_partial: exactly if any label contains -CM. C77_frame_refuted: lab angles with a center-of-mass incident energy are reported in the center of mass."
 },
 "C78": {
  "note": "C78_csv and C78_section_csv, for all datasets and sections. Python's csv.writer is modelled (default dialect, line terminator as passed)."
 },
 "C79": {
  "note": "C79_states and C79_math. False for a ratio without an isomer such as -G/T: C79_ratio_refuted (read as one nucleus with the states 0 and 1)."
 },
 "C80": {
  "note": "C80_all and C80_quantity for the combination itself. For the field: C80_listed_partial (the plain reactions), C80_isomers (a single reaction with isomer arithmetic gives the reactions for all isomers); false for isomer arithmetic inside a combination: C80_listed_refuted."
 },
 "C81": {
  "note": "C81_text (str) and C81_repr (repr), for all combinations."
 },
 "C82": {
  "note": "C82_code_partial, C82_single_partial, C82_modified_partial (modifiers). False for codes that differ in empty fields only: C82_empty_refuted (they give the same object)."
 },
 "C83": {
  "note": "C83_count. The readable form of one alpha particle is 'alpha', that of two is '2a': the code is used, in small letters, if there is a number."
 },
 "C84": {
  "note": "C84_partial: for reactions with a standard form (WrittenAs: nuclei, isomers with one level, elements, compounds and variables as target; particles and nuclei as products; a residual that is none, or one of the former). False for variable or light-particle residuals taken from the product list and for the state -T: C84_unreadable_refuted, C84_total_refuted."
 },
 "C85": {
  "note": "C85_read, C85_none, C85_file, against the writer in Spec/EntryDoc."
 },
 "C86": {
  "status": "partial",
  "note": "C86_returns: getDataSets never raises for an entry whose first subentry has a BIB section, if the combinations of reactions can be printed; false without that (C86_unprintable_refuted, C86_unprintable_written_refuted: the KeyError for a compound missing in the dictionary replaces the NotImplementedError for a ratio of different quantities, and all datasets of the entry are lost). C86_dataset_partial and C86_written_partial: exact contents for any requested subentry other than the first, the reaction being in the subentry or in the first one, for distinct DATA labels and COMMON tables with one row and without other pointers; C86_only: there are no other datasets. C86_rows_partial: the same for the first subentry, too, and for COMMON tables with any number of rows (row by row, zeros after the last); false for data in a first subentry with a COMMON table, whose headings come twice, with zeros below the second (C86_first_refuted). Missing: COMMON tables with other pointers and repeated DATA labels, where the property is false (see C20). C86_monitors: reaction and monitors of a dataset always come from the same subentry, its own or, if that gives no usable reaction, the first. C86_keys_partial: there is a dataset for a requested subentry with data and a pointer iff a reaction with a quantity is written under that pointer in the subentry or in the first one (if no COMMON column has another pointer; without that condition only the 'only if' part)."
 },
 "C87": {
  "status": "partial",
  "note": "C87_retrieve is complete for plain criteria (no wildcards); with wildcards it is C124_retrieve. C87_datasets_partial and C87_rows_partial have the restrictions of C86_dataset_partial and C86_rows_partial on the tables."
 },
 "C88": {
  "status": "partial",
  "note": "Proved for the column layouts of Spec/Simple (EnergyGiven, DataGiven, DistGiven, AngleGiven): of several columns for a quantity or an uncertainty the first one counts; energies may be given beside their limits; cosines of angles included (their errors are C34); spectrum-averaged cross sections are C91. C88_retrieved_partial composes it with C87. C88_cm_refuted: a DATA-CM column without errors counts as no data. C88_momentum_refuted: momenta in GeV/c appear in the energy column in MeV. C88_limits_refuted: energies given together with limits, without uncertainties, are replaced by the middle between the limits. By their headings and units, all datasets of the test files that the model simplifies (173 angular, 54 cross sections, 5 nubar) have these layouts; the others are those of C125."
 },
 "C89": {
  "status": "partial",
  "note": "Reading: C89_nucleus, C89_isomer, C89_math, C89_list. Printing: C89_exfor_partial, C89_isomer_exfor_partial, C89_pretty. ENDL names: C89_endl, C89_endl_injective, C89_endl_isomer. False for the neutron written as a nucleus (C89_neutron_refuted: printed as n, not readable) and for the sum over all states (C89_total_refuted: -T is printed as -M, the first isomer)."
 },
 "C90": {
  "status": "partial",
  "note": "C90_reactions_partial and C90_monitors for all fields; C90_quoted, C90_monitor_determined: texts and headings can be read back. False for REACTION fields without pointer: C90_free_text_refuted (the free text is never shown)."
 },
 "C91": {
  "status": "partial",
  "note": "C91_spectrum_partial is proved for the layouts of Spec/Spectrum (SpectrumGiven), with an energy column without errors beside the temperature (EnergyBeside). C91_energy_error_refuted: a temperature without uncertainty gets the uncertainty of an energy beside it. C91_ktk_refuted: a column KT-K without errors is not read."
 },
 "C92": {
  "status": "partial",
  "note": "C92_quantity_partial: all units except K, SR and ARB-UNITS, exactly. C92_kelvin_refuted: k T comes out 0.0511 % too large; C92_kelvin_partial bounds the error. C92_dimension_refuted: SR becomes degrees and ARB-UNITS a pure number."
 },
 "C93": {
  "status": "proved",
  "note": "C93_title and C93_text for all fields; C93_title_plain and C93_text_plain state it on the lines for fields without pointers."
 },
 "C94": {
  "status": "partial",
  "note": "C94_complete, C94_bib_text, C94_subentry_text, C94_entry_text, C94_entry_prints: what is shown, for all objects read. Reading back: C94_table_partial for tables of at most six columns without missing cells and with numbers that fit; false for every table of more than six columns (C94_columns_refuted: two rows are missing, if it can be read at all), for missing cells (C94_missing_refuted), for wider numbers (C94_wide_number_refuted), BIB sections, subentries and entries (C94_bib_refuted, C94_subentry_refuted, C94_entry_refuted)."
 },
 "C95": {
  "status": "partial",
  "note": "C95_listing, C95_listing_file, C95_rawdata, C95_rawdata_file, C95_documentation, C95_file, C95_raw_file, C95_arguments for all databases of files in EXFOR format. False for --raw without -f: only accession numbers are printed (C95_raw_refuted). --data: C95_data_partial, C95_data_first, for the entries C86_dataset_partial covers; the messages printed for sets that could not be made are those of C107."
 },
 "C96": {
  "status": "partial",
  "note": "False: nothing is ever plotted (C96_refuted); C96_outcome gives how it ends instead."
 },
 "C97": {
  "status": "partial",
  "note": "C97_entry, C97_all_or_nothing, C97_retrieve, C97_reaction, C97_institute, C97_reference. False: AUTHOR fields that cannot be read raise TypeError (C97_author_refuted), REACTION fields with an unknown particle KeyError (C97_reaction_refuted)."
 },
 "C98": {
  "status": "partial",
  "note": "C98_field, C98_pointer, C98_fails, C98_reaction, C98_combination: codes on one line or broken into two, at the margin. C98_continued: codes on three or more lines, cut at parentheses and commas, are read like those on two; codes with one opening parenthesis per line are C42_refuted. C98_indented_refuted: codes that are indented are read differently. C98_dataset: the monitors of a dataset are those written under its pointer in the MONITOR field of the subentry with its reaction."
 },
 "C99": {
  "status": "partial",
  "note": "C99_single and C99_combination: the equation, for all combinations, with the texts of all members (isomer arithmetic included). C99_list_partial: getX4ReactionList for combinations without isomer arithmetic inside. False with isomer arithmetic inside (C99_list_refuted) and for MONITOR fields, which inherit the method (C99_monitor_refuted: AttributeError)."
 },
 "C100": {
  "status": "partial",
  "note": "C100_cells: all rectangular datasets and all indices. C100_written_partial: on datasets of written entries (restrictions of C86_dataset_partial). C100_repr_partial: datasets with columns and texts without quotation marks and backslashes; false otherwise (C100_repr_quotes_refuted, C100_repr_empty_refuted, C100_repr_reaction_refuted). C100_repr_header, C100_repr_prints: all datasets."
 },
 "C11": {
  "note": "C11_validated and C11_reads_own_file for files, C11_dictionary for entries from memory (for every behaviour of the access to the cache)."
 },
 "C25": {
  "note": "Hypothesis Reads: the column parsers raise nothing else."
 },
 "C101": {
  "status": "partial",
  "note": "C101_balanced_partial: true if charges and mass numbers add up and there are not only protons (light particles, numbers of them, nuclei, and channels as products; state G, M, M1, ..., T or none). False otherwise: C101_scattering_refuted (behind EL, INL, SCT, THS the residual is the target, so that 49-IN-115(N,INL)49-IN-115-M has a residual in the ground state), C101_channel_refuted (fission yields: no residual, the fragment is listed with the products), C101_protons_refuted (1-H-1(P,PIP)1-H-2: no residual), C101_natural_refuted (a natural element as target: no residual, the written one is listed with the products)."
 },
 "C102": {
  "status": "proved",
  "note": "C102_blanks (any text), C102_code and C102_lines (exact free text), C102_monitor. Proved for every parser of the reaction grammar (Lemmas/Breaks.lean, per combinator; expression_unfoldings: the number of unfoldings in the model does not matter). C102_word_refuted shows that cuts inside words are different."
 },
 "C103": {
  "status": "proved",
  "note": "C103_server, C103_unknown, C103_all, C103_fails. What a single file means is C57."
 },
 "C104": {
  "note": "C104_bib_partial: for sections with distinct tags, whose pointers stand in increasing order in each field. C104_subentry_partial: moreover no tag, first heading or first unit may begin with END, and tables have one to six columns and fewer than 10^10 rows; the accession number is read three columns too far right (C14). The order of the printed sections and subentries: C104_subentry_text, C104_entry_text, C104_entry_prints, without restriction on the contents (accession numbers of 8 characters). Without the restrictions the statement is false: C104_end_tag_refuted, C104_wide_refuted, C104_no_author_refuted."
 },
 "C105": {
  "status": "partial",
  "note": "C105_average_partial: columns of which at most one has a heading and at most one a unit. False of others, and thus of all columns the parsers find: TypeError (C105_refuted). Different lengths: C105_lengths."
 },
 "C106": {
  "status": "partial",
  "note": "With the readable names of what is written (Spec/Readable: tables of channels, particles and variables; nuclei, states and compounds): C106_none (no residual: everything written is named, a written residual with the products; C101 tells when), C106_scattering (channel, and the target as residual), C106_written_partial (written residual, balanced), C106_computed_partial and C106_last_partial (no residual written, products are particles and nuclei). The type is C82. False: the state -T is shown like -M (C106_total_refuted), neutrons left over like nitrogen (C106_neutrons_refuted), and scattering hides a written residual. Not covered: particles that are not in the tables, written residuals with other targets than nuclei when charges add up."
 },
 "C107": {
  "status": "proved",
  "note": "C107_same: the runs with messages are those of C35, C43, C86. C107_made: the messages for all entries read from text, per subentry and pointer; C107_coupled and C107_combination: a combination of different quantities; C107_simplified, C107_class, C107_distinct: datasets that cannot be simplified. The texts of Python's own TypeError and IndexError are a parameter."
 },
 "C108": {
  "status": "partial",
  "note": "C108_chunks_partial: for codes and texts of the characters of words. False otherwise: C108_punctuation_refuted (any other character ends the list, all that follows is lost)."
 },
 "C109": {
  "status": "partial",
  "note": "C109_pointer_partial: all fields whose pointer column has a blank or no white space. False for other white space: C109_tab_refuted."
 },
 "C110": {
  "status": "partial",
  "note": "C110_cells_partial, C110_table_partial: cells not wider than the columns. False otherwise: C110_wide_refuted. Cells are given by their str."
 },
 "C111": {
  "status": "proved",
  "note": "C111_settings, C111_retrieve: sqlite3.connect is a parameter; C111_base, C111_letters."
 },
 "C112": {
  "status": "partial",
  "note": "C112_simplified_partial (any rounding of relative error u: 47 roundings), C112_double_partial (53 binary digits: 1e-14), C112_entry_partial (all datasets of an entry): proved for tables without cosines of angles. C112_cosine_refuted: an angle given by a cosine almost equal to 1 becomes 0. C112_read, C112_column, C112_nonneg hold in general."
 },
 "C113": {
  "note": "C113_authors, C113_institutes, C113_references, C113_reaction, C113_combination: for every text, without a condition on its form. The residual nucleus (which may be computed) and the reactions made from isomer arithmetic are left out."
 },
 "C114": {
  "status": "partial",
  "note": "C114_rows_partial (all rows and columns; with makeAllColumns a missing uncertainty may be 0 in one and None in the other), C114_fewer, C114_append_partial (if both simplified datasets have the same columns, without makeAllColumns). C114_rows_refuted, C114_append_refuted: whether a missing uncertainty is 0, None or has no column depends on the other rows."
 },
 "C115": {
  "note": "C115_local (texts), C115_selection and C115_simplified (entry files), C115_retrieved (what a query finds), C115_first_needed."
 },
 "C116": {
  "status": "partial",
  "note": "C116_attributes_partial: all attributes, for all written entries and selections, except that a title, year or type of publication that reads 'None' counts as missing. C116_title_partial: the words of the title, in title case. C116_title_refuted: the title NONE of a subentry is replaced by that of the first subentry, or dropped."
 },
 "C117": {
  "status": "partial",
  "note": "C117_families: all datasets, if of several columns for the same quantity (families of headings, Spec/ColumnOrder) the order is the same. C117_order_partial: any order, if no family comes twice. C117_places_partial: the same for written entries, with the restrictions of C86_rows_partial. C117_order_refuted: of an energy and a mean energy, for all values, the one further left is taken."
 },
 "C118": {
  "status": "partial",
  "note": "C118_units_partial, C118_columns_partial and C118_order_partial: all datasets over the reals, for the units of Spec/UnitChoice (24 units of 9 kinds), in any or all of the columns except cosines. C118_entries_partial: the same for written entries, with the restrictions of C86_rows_partial. C118_kelvin_refuted: every temperature in Kelvin becomes another energy than the same energy in electronvolts. C118_nanobarn_refuted: a column in nanobarns is not recognised, whatever the numbers. Rounding is the subject of C112."
 },
 "C119": {
  "status": "partial",
  "note": "C119_percent_partial: all datasets over the reals with at most one column of each family of headings, without cosines, if ERR and ERR-S are not mixed (one in percent, the other not). C119_entries_partial: the same for written entries, with the restrictions of C86_rows_partial. C119_asymmetric_refuted: +DATA-ERR and -DATA-ERR in percent are ignored, whatever the numbers. For mixed columns the claim is false by C31_mixed_refuted, for cosines by C28_cosine_refuted."
 },
 "C120": {
  "status": "proved",
  "note": "C120_layout, with the layouts in Spec/Layout; C120_written: the file of C85 is one of them; C120_read: C85 for all layouts. The limits in the statement are necessary: C120_blanks_refuted, C120_author_refuted, C120_counter_refuted. All theorems about written entries (C85-C119) carry over by C120_layout. The lines of a real file (x4i3/tests/12898.x4) are the example. All 122 entry files under x4i3/tests/data/db have such a layout (checked by a script that reads them as text; this is evidence for the hypotheses, not part of the proof)."
 },
 "C121": {
  "status": "proved",
  "note": "C121_retrieve, C121_getitem and C121_program compare two databases; C121_holds is C87 for files in any layout. The restricted theorems about datasets and simplified datasets (C87, C88) carry over as well: laid_datasets, laid_simplified."
 },
 "C122": {
  "status": "proved",
  "note": "C122_doubled, C122_odd. SQLite is modelled for the conditions that occur (Model/Sql); the restriction NoSql in C122_odd keeps the texts away from comments, quoted names and further statements, which the model does not have."
 },
 "C123": {
  "note": "C123_case_partial and C123_retrieve_partial: same SQL statement and same result for criteria that differ in case, whatever the texts (also with quotes and wildcards), except for the quantity CS, which must be in capital letters (C123_quantity_refuted: cs is searched as CS and not as SIG). C123_found_partial: rows with capitalized authors and the rest in capital letters are found by their own values in any case (plain texts). False for names with a further capital letter: C123_author_refuted (a subentry all of whose authors are written so is in no result of any search by author), C123_name_refuted (Le Brun, who is in the index of the tests, is searched as 'Le brun')."
 },
 "C124": {
  "note": "C124_query (all texts without NUL characters, quotes doubled), C124_plain (texts without quotes, as they are), C124_retrieve (all grammars), C124_ordinary (where these are the criteria of C45). With C124 the result of query is known for all texts whose quotes are doubled; SQLite is modelled for the conditions that occur (Model/Sql)."
 },
 "C125": {
  "note": "C125_never, C125_energy: all tables over all kinds of numbers. C125_angle, C125_outgoing, C125_data, C125_distribution: the exact error, with the quantities before the missing one given as in C88 (over the reals). C125_per_energy: for all energy distributions whose data columns are in barns per unit of energy. In the files of the tests 19 angular datasets are without angles, 6 datasets without energies, and all 8 energy distributions in MB/MEV."
 },
 "C126": {
  "status": "partial",
  "note": "Composes C120, C121, C124 (found and read), C86 (datasets), C88, C91 (simplified), C112 (double precision) and C125 (missing columns) for all kinds of datasets; C126_holds has no further hypotheses. The other parts are restricted as these are: DATA tables without repeated headings, COMMON tables whose columns have no pointer or that of the dataset (with any number of rows: beyond the last row they count as 0, C21), criteria without quotes (C122 for those), tables covered by the constructors of QuantitiesGiven, and no cosines for the double precision. The examples follow an angular distribution written in a file to its simplified table, and one without angles."
 },
 "C127": {
  "note": "C127_order, C127_entry (query), C127_object, C127_update, C127_removed (retrieve): no restrictions on criteria, tables or files. SQL is that of Model/Sql (conditions on one table)."
 },
 "C128": {
  "note": "C128_lines and C128_read (all bytes), C128_database and C128_retrieve (two folders, all searches, also failing ones), C128_archive (what C121 and C126 say of files of lines holds from the bytes on), C128_found (C126_holds from the bytes on, for criteria as there: no quotes)."
 },
 "C129": {
  "status": "partial",
  "note": "C129_answers: the first sentence, for all entries and all sequences of calls that succeed; C129_exceptions: also after calls that raise exceptions (Model/SessionLeft: what these leave behind), C129_agrees: the two models of sequences agree. The second sentence is false: C129_errors_refuted (errors of earlier calls stay); C129_errors: each call adds exactly the errors it records on a new object (C129_errors_exceptions: also after calls that raise exceptions). C129_completes, C129_recorded, C129_order: a sequence of calls succeeds just if each call does on a new object, and the datasets with a recorded error are those of the single calls, in any order."
 }
}