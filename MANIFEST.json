{
 "claims": [
  {
   "property": "C01",
   "status": "proved",
   "theorems": [
    "Ticdat.find_fk_exact"
   ],
   "note": "For keys with distinct foreign fields; Ticdat.find_fk_repeated_foreign_field_misses shows the code is wrong when a foreign field is repeated."
  },
  {
   "property": "C02",
   "status": "proved",
   "theorems": [
    "Ticdat.find_fk_max_failures"
   ],
   "note": ""
  },
  {
   "property": "C03",
   "status": "proved",
   "theorems": [
    "Ticdat.remove_fk_terminates_clean"
   ],
   "note": ""
  },
  {
   "property": "C04",
   "status": "proved",
   "theorems": [
    "Ticdat.remove_fk_greatest"
   ],
   "note": ""
  },
  {
   "property": "C05",
   "status": "proved",
   "theorems": [
    "Ticdat.pandat_find_fk_exact",
    "Ticdat.pandat_find_fk_max_failures",
    "Ticdat.pandat_remove_fk_greatest",
    "Ticdat.pandat_remove_order_independent",
    "Ticdat.pandat_remove_same_as_ticdat"
   ],
   "note": "For keys that do not cross field names (NoClobber); Ticdat.pandat_crossed_fields_wrong shows the code is wrong for crossed names."
  },
  {
   "property": "C06",
   "status": "partial",
   "theorems": [
    "Ticdat.implied_fks_same_verdict_partial",
    "Ticdat.implied_fks_terminates"
   ],
   "note": "Proved when every referenced table has a primary key. Otherwise false: Ticdat.implied_fk_pkless_changes_verdict."
  },
  {
   "property": "C07",
   "status": "proved",
   "theorems": [
    "Ticdat.circle_warning_exact"
   ],
   "note": ""
  },
  {
   "property": "C08",
   "status": "proved",
   "theorems": [
    "Ticdat.pg_order_spec"
   ],
   "note": ""
  },
  {
   "property": "C09",
   "status": "proved",
   "theorems": [
    "Ticdat.sqlite_order_spec"
   ],
   "note": "For acyclic keys; with a cycle the recursion never ends: Ticdat.sqlite_order_diverges_on_cycles."
  },
  {
   "property": "C10",
   "status": "proved",
   "theorems": [
    "Ticdat.pg_write_never_breaks_fks"
   ],
   "note": ""
  },
  {
   "property": "C11",
   "status": "partial",
   "theorems": [
    "Ticdat.find_types_exact",
    "Ticdat.find_types_max_failures",
    "Ticdat.find_types_untyped_pk_only_null_partial",
    "Ticdat.find_types_flags_bool_primary_key"
   ],
   "note": "Exactness is proved with the rule the code applies. The clause 'an untyped primary key only excludes null' is false of the code: boolean and datetime keys are flagged too (find_types_flags_bool_primary_key); the partial theorem covers all other cells."
  },
  {
   "property": "C12",
   "status": "proved",
   "theorems": [
    "Ticdat.replace_types_spec"
   ],
   "note": "Refusal condition, frame, repair, row preservation and idempotence."
  },
  {
   "property": "C13",
   "status": "proved",
   "theorems": [
    "Ticdat.valid_data_iff",
    "Ticdat.valid_int_infinity_asymmetric"
   ],
   "note": "Full rule as an iff; finding: with must_be_int +inf is accepted and -inf is not."
  },
  {
   "property": "C14",
   "status": "proved",
   "theorems": [
    "Ticdat.safe_creator_spec"
   ],
   "note": "Accepted arguments, normal form and fixed point."
  },
  {
   "property": "C15",
   "status": "proved",
   "theorems": [
    "Ticdat.find_rows_exact",
    "Ticdat.find_rows_unhandled",
    "Ticdat.find_rows_max_failures",
    "Ticdat.response_modes_agree",
    "Ticdat.pan_rows_same_as_tic",
    "Ticdat.pan_find_rows_exact",
    "Ticdat.param_check_spec",
    "Ticdat.makersAgree_of_no_conversion"
   ],
   "note": "Exact for TicDat and PanDat when predicates sharing a maker agree on conversion; this holds for every factory not cloned with convert_dat (see C41 for the others)."
  },
  {
   "property": "C16",
   "status": "proved",
   "theorems": [
    "Ticdat.auto_name_never_clobbers",
    "Ticdat.named_pred_frame"
   ],
   "note": "After every history of additions and removals; the name is the least free number and every other predicate is unchanged."
  },
  {
   "property": "C17",
   "status": "partial",
   "theorems": [
    "Ticdat.full_params_spec_partial",
    "Ticdat.full_params_raises",
    "Ticdat.add_parameter_spec"
   ],
   "note": "Full dictionary for tables whose keys are strings. Missing: other keys, for which the code raises TypeError (full_params_raises)."
  },
  {
   "property": "C18",
   "status": "partial",
   "theorems": [
    "Ticdat.schema_round_trip_partial",
    "Ticdat.schema_round_trip_sharp",
    "Ticdat.create_reachable",
    "Ticdat.implied_key_breaks_schema",
    "Ticdat.number_parameter_breaks_schema",
    "Ticdat.cleared_type_entry_lost"
   ],
   "note": "Proved for every reachable factory whose foreign keys have fields and whose parameters are named by strings and have no container defaults; schema_round_trip_sharp shows that exactly the others make create_from_full_schema raise. Equality ignores empty entries left behind by clear_data_type (cleared_type_entry_lost). Missing: the property as stated is false for the other reachable factories."
  },
  {
   "property": "C19",
   "status": "proved",
   "theorems": [
    "Ticdat.num_flag_round_trip",
    "Ticdat.num_flag_survives",
    "Ticdat.num_flag_bounded",
    "Ticdat.num_flag_other",
    "Ticdat.na_flag_round_trip",
    "Ticdat.none_flag_round_trip",
    "Ticdat.none_flag_raises",
    "Ticdat.none_flag_write",
    "Ticdat.set_flag_positive",
    "Ticdat.int_min_infinity_not_flagged"
   ],
   "note": "All values, flags and types; numbers are exact (no floating point rounding)."
  },
  {
   "property": "C20",
   "status": "partial",
   "theorems": [
    "Ticdat.json_round_trip_partial",
    "Ticdat.json_read_back",
    "Ticdat.json_table",
    "Ticdat.json_cell_survives",
    "Ticdat.json_long_row_truncated",
    "Ticdat.json_string_row",
    "Ticdat.json_bool_becomes_number",
    "Ticdat.json_names_free",
    "Ticdat.json_cell_iff",
    "Ticdat.json_round_trip_iff",
    "Ticdat.json_example_flag",
    "Ticdat.json_param_iff",
    "Ticdat.fix_param_iff",
    "Ticdat.json_round_trip_params_iff"
   ],
   "note": "json_round_trip_iff says, for schemas without parameters, exactly which objects come back: those whose cells all satisfy JsonKeeps. json_round_trip_params_iff says it with declared parameters: entries of the parameters table must satisfy JsonParamKeeps. Cells in datetime fields that are text, Booleans and numeric text under automunge, numbers beyond the infinity flag and text parameters that read as numbers are changed. json.dumps/loads is taken to carry null, Booleans, numbers and strings exactly, with dictionary entries in any order."
  },
  {
   "property": "C21",
   "status": "partial",
   "theorems": [
    "Ticdat.csv_file_found_partial",
    "Ticdat.json_key_matches_partial",
    "Ticdat.sheet_found_partial",
    "Ticdat.norm_pretty",
    "Ticdat.pretty_name_not_matched",
    "Ticdat.json_names_free",
    "Ticdat.sql_find_by_name"
   ],
   "note": "Full for csv and json when upper and lower case of the characters of the name are inverse (true of ASCII, asciiLaws/asciiRoundTrip); fails for characters such as the sharp s (pretty_name_not_matched). For Excel see C37."
  },
  {
   "property": "C22",
   "status": "partial",
   "theorems": [
    "Ticdat.csv_cells_by_header_partial",
    "Ticdat.csv_column_order",
    "Ticdat.csv_extra_columns",
    "Ticdat.csv_missing_or_ambiguous",
    "Ticdat.csv_long_line",
    "Ticdat.csv_cells_by_position",
    "Ticdat.csv_header_unchecked"
   ],
   "note": "Holds for files with data lines and no exactly repeated header; csv_header_unchecked shows the two cases the code misses."
  },
  {
   "property": "C23",
   "status": "partial",
   "theorems": [
    "Ticdat.literal_round_trip_iff_partial",
    "Ticdat.sql_file_row_iff_partial",
    "Ticdat.adjacent_quotes_silently_changed",
    "Ticdat.quote_and_semicolon_unreadable"
   ],
   "note": "False for all strings; the theorems are an exact characterisation (iff) of the strings that survive. SQLite's reading of literals is part of the model."
  },
  {
   "property": "C24",
   "status": "proved",
   "theorems": [
    "Ticdat.mem_underscoreReplacements",
    "Ticdat.underscoreReplacements_nodup"
   ],
   "note": "Exactly the blanked variants, once each."
  },
  {
   "property": "C25",
   "status": "proved",
   "theorems": [
    "Ticdat.slicer_answers"
   ],
   "note": "For the code path without gurobipy."
  },
  {
   "property": "C26",
   "status": "proved",
   "theorems": [
    "Ticdat.find_duplicates_exact",
    "Ticdat.csv_find_duplicates_exact"
   ],
   "note": "Both the shared and the csv implementation."
  },
  {
   "property": "C27",
   "status": "partial",
   "theorems": [
    "Ticdat.frozen_forever_partial",
    "Ticdat.freeze_establishes",
    "Ticdat.frozen_attempts_raise",
    "Ticdat.freeze_changes_no_contents",
    "Ticdat.freeze_succeeds",
    "Ticdat.frozen_table_can_be_cleared",
    "Ticdat.frozen_table_other_leaks"
   ],
   "note": "Proved for every history without clear/popitem/setdefault/|= ; those change frozen tables (negation witnessed)."
  },
  {
   "property": "C28",
   "status": "proved",
   "theorems": [
    "Ticdat.used_setters_raise",
    "Ticdat.used_fixed",
    "Ticdat.tables_fixed",
    "Ticdat.remove_parameter_after_use"
   ],
   "note": "Proved over all call histories; the only non-raising setter clears the type of an untyped field and changes nothing. remove_parameter_after_use records what can still change."
  },
  {
   "property": "C29",
   "status": "partial",
   "theorems": [
    "Ticdat.table_shapes_partial",
    "Ticdat.dataless_key_shapes",
    "Ticdat.lookup_inserts_default",
    "Ticdat.lookup_wrong_shape_raises",
    "Ticdat.keyOK_iff",
    "Ticdat.update_breaks_shapes",
    "Ticdat.dataless_row_accepts_fields"
   ],
   "note": "Proved for every history without update/setdefault/|= on the table; those bypass the checks (witnessed), and rows of tables without data fields take any field (witnessed)."
  },
  {
   "property": "C30",
   "status": "proved",
   "theorems": [
    "Ticdat.assign_dict_iff",
    "Ticdat.assign_seq_iff",
    "Ticdat.assign_scalar_iff",
    "Ticdat.row_setItem_spec"
   ],
   "note": "Assignments succeed exactly when described, with the described contents."
  },
  {
   "property": "C31",
   "status": "partial",
   "theorems": [
    "Ticdat.copy_view",
    "Ticdat.copy_equal_partial",
    "Ticdat.copies_independent_partial",
    "Ticdat.clients_independent",
    "Ticdat.copy_raises",
    "Ticdat.generator_copy_follows",
    "Ticdat.foreign_field_blocks_copy"
   ],
   "note": "Proved for dict and list tables, all histories of two clients. Missing: generator tables, whose copies share the source of the original (generator_copy_follows proves they always do)."
  },
  {
   "property": "C32",
   "status": "proved",
   "theorems": [
    "Ticdat.pgName_legal",
    "Ticdat.pgName_idempotent",
    "Ticdat.pgName_fixed_iff"
   ],
   "note": "For any character tables that satisfy CaseLaws (asciiLaws is an instance)."
  },
  {
   "property": "C33",
   "status": "proved",
   "theorems": [
    "Ticdat.remove_trailing_exact",
    "Ticdat.numberNanLastRows_spec",
    "Ticdat.dfApply_trip"
   ],
   "note": "Binary search invariant; also the trip wire of faster_df_apply."
  },
  {
   "property": "C34",
   "status": "proved",
   "theorems": [
    "Ticdat.obfusimplify_renames",
    "Ticdat.Spec.Obfuscates.names_iff",
    "Ticdat.obfusimplify_returns",
    "Ticdat.two_entities_raise",
    "Ticdat.obfusimplify_example",
    "Ticdat.two_entities_example",
    "Ticdat.skipped_entity_raises",
    "Ticdat.data_field_key_raises",
    "Ticdat.many_tables_raise"
   ],
   "note": "Every returned copy is the data under an injective renaming of entities (obfusimplify_renames, names_iff); it returns for clear foreign keys and at most 25 entity tables (obfusimplify_returns). Findings: it raises when a field refers to two entity tables, to a skipped and an entity table, for keys that also map a data field, and when it runs out of prefixes."
  },
  {
   "property": "C35",
   "status": "proved",
   "theorems": [
    "Ticdat.clone_remove_column",
    "Ticdat.clone_add_column",
    "Ticdat.clone_add_append",
    "Ticdat.clone_rename_column",
    "Ticdat.clone_add_table",
    "Ticdat.clone_tables_kept",
    "Ticdat.clone_same",
    "Ticdat.cloneRemove_reachable",
    "Ticdat.cloneAdd_reachable",
    "Ticdat.generic_table_blocks_clones",
    "Ticdat.dropped_generator_raises",
    "Ticdat.empty_restriction_keeps_tables",
    "Ticdat.generator_predicate_blocks_clone",
    "Ticdat.only_column_cannot_be_renamed",
    "Ticdat.parameters_column_cannot_be_renamed",
    "Ticdat.no_first_table"
   ],
   "note": "For every reachable TicDatFactory meeting the stated conditions, each edit gives exactly the described factory; where the conditions fail the edit raises (findings). PanDatFactory clones and convert_dat are not in this model (convert_dat: C41)."
  },
  {
   "property": "C36",
   "status": "proved",
   "theorems": [
    "Ticdat.param_number_survives",
    "Ticdat.param_text_survives",
    "Ticdat.param_null_survives",
    "Ticdat.param_date_survives",
    "Ticdat.param_table_survives",
    "Ticdat.param_digits_become_number",
    "Ticdat.unaryText_ok",
    "Ticdat.param_boolean_becomes_number"
   ],
   "note": "Text and float conversion of the libraries is abstract, under TextOK (shown satisfiable by unaryText_ok). param_digits_become_number is the documented limit."
  },
  {
   "property": "C37",
   "status": "partial",
   "theorems": [
    "Ticdat.sheet_found_partial",
    "Ticdat.sheet_check_lower_partial",
    "Ticdat.sheet_check_misses_case",
    "Ticdat.sheet_clash_iff",
    "Ticdat.sheet_clash_raises"
   ],
   "note": "The check is case-sensitive while the matching is not: false in general (witness), proved for names that differ up to case or are lower case."
  },
  {
   "property": "C38",
   "status": "partial",
   "theorems": [
    "Ticdat.csv_no_overwrite_partial",
    "Ticdat.csv_overwrite_iff",
    "Ticdat.pretty_write_overwrites"
   ],
   "note": "False with case_space_table_names=True (witness); proved without."
  },
  {
   "property": "C39",
   "status": "proved",
   "theorems": [
    "Ticdat.nearlySame_symm",
    "Ticdat.nearlySame_refl",
    "Ticdat.nearlySame_fin",
    "Ticdat.nearlySame_infinite",
    "Ticdat.nearlySame_scale",
    "Ticdat.nearlySame_nan"
   ],
   "note": "Exact arithmetic, no rounding. NaN, which is not a number, is outside the statement: nearlySame_nan shows what happens with it."
  },
  {
   "property": "C40",
   "status": "proved",
   "theorems": [
    "Ticdat.cardinality_one_iff"
   ],
   "note": ""
  },
  {
   "property": "C41",
   "status": "partial",
   "theorems": [
    "Ticdat.shared_maker_gets_converted_dat",
    "Ticdat.find_rows_converts_partial",
    "Ticdat.find_rows_exact"
   ],
   "note": "The full claim is false of the code: maker results are remembered by maker only. shared_maker_gets_converted_dat is the witness; find_rows_converts_partial proves the claim when predicates that share a maker agree on conversion."
  },
  {
   "property": "C42",
   "status": "partial",
   "theorems": [
    "Ticdat.pan_num_flag_round_trip_partial",
    "Ticdat.pan_none_flag_round_trip_partial",
    "Ticdat.pan_write_same_as_tic",
    "Ticdat.pan_param_text_round_trip",
    "Ticdat.pan_automunge_misses_flag"
   ],
   "note": "Proved for fields whose text is not reinterpreted. For automunged fields the claim is false of the code: pan_automunge_misses_flag."
  },
  {
   "property": "C43",
   "status": "partial",
   "theorems": [
    "Ticdat.parameters_not_flagged_partial",
    "Ticdat.undeclared_parameters_lose_infinity"
   ],
   "note": "Proved when parameters are declared. Without declarations the code flags on writing and never unflags: undeclared_parameters_lose_infinity."
  },
  {
   "property": "C44",
   "status": "partial",
   "theorems": [
    "Ticdat.pgCompatible_columns_distinct_partial",
    "Ticdat.reserved_word_missed"
   ],
   "note": "Distinctness is proved; the reserved word part is false because the raw field names are compared (witness)."
  },
  {
   "property": "C45",
   "status": "partial",
   "theorems": [
    "Ticdat.init_from_dict",
    "Ticdat.init_from_rows_partial",
    "Ticdat.init_plain",
    "Ticdat.init_object",
    "Ticdat.init_duplicates",
    "Ticdat.init_well_shaped",
    "Ticdat.list_rows_ignore_defaults",
    "Ticdat.list_rows_ignore_missing_key"
   ],
   "note": "Proved for dictionaries and lists of rows. Not as stated: rows given as dictionaries inside a list get 0 instead of the field default, and a missing key field counts as 0 (witnesses). DataFrames, generators and generic tables are C51 and C54."
  },
  {
   "property": "C46",
   "status": "proved",
   "theorems": [
    "Ticdat.csv_round_trip",
    "Ticdat.csv_read_back",
    "Ticdat.csv_table",
    "Ticdat.csv_cell_survives",
    "Ticdat.text_param_survives",
    "Ticdat.csv_number_key_becomes_text",
    "Ticdat.csv_empty_text_becomes_infinity",
    "Ticdat.csv_duplicates_unnoticed",
    "Ticdat.csv_case_fields_unreadable",
    "Ticdat.csv_round_trip_iff",
    "Ticdat.csv_cell_iff",
    "Ticdat.csv_example_flag",
    "Ticdat.csv_round_trip_params_iff",
    "Ticdat.text_param_iff"
   ],
   "note": "csv_round_trip_iff says, for schemas without parameters, exactly which objects come back: those whose cells all satisfy CsvKeeps; csv_round_trip_params_iff says it with declared parameters, whose entries must satisfy TextParamKeeps. Whole directories, both header modes, plain and pretty names; csv_number_key_becomes_text, csv_empty_text_becomes_infinity, csv_duplicates_unnoticed and csv_case_fields_unreadable are findings: what is lost outside the stated conditions. The csv module's quoting is trusted to carry lists of texts."
  },
  {
   "property": "C47",
   "status": "proved",
   "theorems": [
    "Ticdat.sql_db_round_trip",
    "Ticdat.sql_file_round_trip",
    "Ticdat.sql_plain_bool_becomes_number",
    "Ticdat.sql_true_text_becomes_bool",
    "Ticdat.sql_inf_text_becomes_number",
    "Ticdat.sql_digits_become_number",
    "Ticdat.sql_plain_infinity_not_flagged",
    "Ticdat.sql_plain_infinity_becomes_text",
    "Ticdat.sql_nan_becomes_none",
    "Ticdat.sql_find_by_name",
    "Ticdat.sql_cell_iff",
    "Ticdat.sql_inf_containers",
    "Ticdat.sql_file_round_trip_keeps",
    "Ticdat.sql_db_round_trip_keeps",
    "Ticdat.sql_file_needs_keeps",
    "Ticdat.sql_db_needs_keeps",
    "Ticdat.sql_param_iff",
    "Ticdat.sql_file_params_keeps",
    "Ticdat.sql_db_params_keeps",
    "Ticdat.sql_file_needs_params",
    "Ticdat.sql_db_needs_params"
   ],
   "note": "SQLite itself is modelled by what it does to cells (affinity, NULL, adapters). The listed findings show that the provisos are needed. sql_cell_iff says exactly which cells come back, for databases and .sql files, tables with and without primary key; sql_*_round_trip_keeps and sql_*_needs_keeps are the two directions for whole objects (the second for schemas without parameters); sql_param_iff, sql_*_params_keeps and sql_*_needs_params are the same with declared parameters, assuming that the text of a datetime spells no Boolean."
  },
  {
   "property": "C48",
   "status": "proved",
   "theorems": [
    "Ticdat.xl_round_trip",
    "Ticdat.xl_read_back",
    "Ticdat.xl_cell_stored",
    "Ticdat.xl_param_survives",
    "Ticdat.xlsx_formula_text_changes",
    "Ticdat.xlsx_empty_text_becomes_none",
    "Ticdat.xls_boolean_becomes_number",
    "Ticdat.xls_none_becomes_text",
    "Ticdat.xls_number_becomes_date",
    "Ticdat.xl_infinity_text_becomes_number",
    "Ticdat.xlsx_infinity_becomes_text",
    "Ticdat.xlsx_nan_raises",
    "Ticdat.xl_trailing_row_lost",
    "Ticdat.xl_duplicates_unnoticed",
    "Ticdat.xl_sheet_names",
    "Ticdat.xl_cell_iff",
    "Ticdat.xl_round_trip_keeps",
    "Ticdat.xl_formats",
    "Ticdat.xl_needs_keeps",
    "Ticdat.xl_round_trip_iff",
    "Ticdat.xl_param_iff",
    "Ticdat.xl_round_trip_params_iff"
   ],
   "note": "Round trip for the cell kinds of XlSafe/XlParam and no blank last row; the other theorems show what happens outside of these conditions. Library conventions for cells (xlwt/xlrd, xlsxwriter/openpyxl) are part of the model. xl_cell_iff says exactly which cells come back (XlKeeps), for both formats, and xl_round_trip_keeps is the round trip under these exact conditions on cells. xl_round_trip_iff: without parameters, an object comes back if and only if its cells are those of XlKeeps and no table ends in a row without stored cells. xl_round_trip_params_iff is the same with declared parameters: the entries of the parameters table that come back are exactly those of XlParamKeeps."
  },
  {
   "property": "C49",
   "status": "partial",
   "theorems": [
    "Ticdat.xl_sheet_read_partial",
    "Ticdat.xl_sheet_read_no_headers_partial",
    "Ticdat.xl_missing_or_ambiguous",
    "Ticdat.xlsx_blank_top_rows_lose_data"
   ],
   "note": "Holds for .xls, and for .xlsx if the first row of the sheet is not blank; a general theorem shows the rows lost otherwise. Also needs a last row that is not blank. Missing or ambiguous headers are refused (xl_missing_or_ambiguous)."
  },
  {
   "property": "C50",
   "status": "proved",
   "theorems": [
    "Ticdat.csv_other_files",
    "Ticdat.csv_table_local",
    "Ticdat.csv_missing_empty",
    "Ticdat.csv_two_files_raise",
    "Ticdat.json_other_keys",
    "Ticdat.json_table_local",
    "Ticdat.json_missing_empty",
    "Ticdat.json_two_keys_raise",
    "Ticdat.xl_other_sheets",
    "Ticdat.xl_table_local",
    "Ticdat.xl_missing_empty",
    "Ticdat.xl_two_sheets_raise",
    "Ticdat.sql_other_tables",
    "Ticdat.sql_table_local",
    "Ticdat.sql_missing_empty",
    "Ticdat.sql_two_tables_raise"
   ],
   "note": "For SQLite the matching names are the variants of the table name with blanks for underscores, up to case (C24)."
  },
  {
   "property": "C51",
   "status": "proved",
   "theorems": [
    "Ticdat.init_from_frame",
    "Ticdat.init_frames"
   ],
   "note": "DataFrames with string or positional column labels; the exact condition for success and the content of every table."
  },
  {
   "property": "C52",
   "status": "proved",
   "theorems": [
    "Ticdat.to_pandas_round_trip",
    "Ticdat.to_pandas_exact",
    "Ticdat.default_hides_index",
    "Ticdat.name_field_no_way_back",
    "Ticdat.generic_copy_is_name",
    "Ticdat.null_key_changes"
   ],
   "note": "Findings: a default value for a key field hides the index; a field called name has no way back; a generic table is copied as its own name."
  },
  {
   "property": "C53",
   "status": "proved",
   "theorems": [
    "Ticdat.pan_init_iff",
    "Ticdat.pan_init_good",
    "Ticdat.pan_copy_same",
    "Ticdat.pan_init_to_tic",
    "Ticdat.to_pandas_good_pan",
    "Ticdat.to_pandas_default_not_good_pan",
    "Ticdat.index_order_matters_for_tic",
    "Ticdat.pan_no_columns_no_defaults",
    "Ticdat.pan_index_numbered_data",
    "Ticdat.pan_tic_disagree_on_default_key",
    "Ticdat.pan_name_field_no_tic"
   ],
   "note": "Exact condition and content. Findings: frames without columns get no defaults; numbered columns are not used for data when the key is the index."
  },
  {
   "property": "C54",
   "status": "proved",
   "theorems": [
    "Ticdat.strict_good_iff",
    "Ticdat.good_raises_only",
    "Ticdat.generous_table_iff",
    "Ticdat.generous_good_iff",
    "Ticdat.generous_is_copy_check",
    "Ticdat.init_kinds_iff",
    "Ticdat.strict_good_builds",
    "Ticdat.built_is_good",
    "Ticdat.generator_rows_assert",
    "Ticdat.generic_columns_assert",
    "Ticdat.good_order_matters",
    "Ticdat.generous_accepts_unbuildable",
    "Ticdat.generous_refuses_buildable"
   ],
   "note": "Exact for strict and generous row checking. Findings: a non-empty container for a generator table always fails the duplicate test under the default policy; the check raises instead of returning False for some attributes; generous checking disagrees with the constructor on containers for tables with primary key."
  },
  {
   "property": "C55",
   "status": "proved",
   "theorems": [
    "Ticdat.links_exact",
    "Ticdat.links_exact_by_table",
    "Ticdat.links_refused",
    "Ticdat.linkName_single",
    "Ticdat.linkName_distinct",
    "Ticdat.link_is_the_row",
    "Ticdat.links_repeated_foreign_field_raises",
    "Ticdat.links_same_native_fields_lost",
    "Ticdat.links_underscore_clash",
    "Ticdat.links_method_name_raises",
    "Ticdat.freeze_misses_links",
    "Ticdat.reading_link_adds"
   ],
   "note": "Exactness of the links for every schema and good data object and every iteration order; distinct link names proved for at most one foreign key per pair of tables, or underscore-free names. Findings: repeated parent field raises, same native fields mapped two ways share a name and lose links, underscores can clash, method names raise, freezing misses link tables."
  },
  {
   "property": "C56",
   "status": "proved",
   "theorems": [
    "Ticdat.pan_types_exact",
    "Ticdat.pan_types_max_failures",
    "Ticdat.pan_types_same_as_ticdat"
   ],
   "note": "DataFrames are lists of rows; max_failures=0 is excluded as in the code's own use (n >= 1)."
  },
  {
   "property": "C57",
   "status": "partial",
   "theorems": [
    "Ticdat.pan_replace_types_partial",
    "Ticdat.pan_replace_data_fields",
    "Ticdat.pan_replace_key_field_raises"
   ],
   "note": "The exact outcome is proved, including when the call raises KeyError. The full claim is false: an entry of replacement_values for a primary key field without a default value makes the call raise KeyError whenever there is any failure (pan_replace_key_field_raises)."
  },
  {
   "property": "C58",
   "status": "proved",
   "theorems": [
    "Ticdat.pan_read_table",
    "Ticdat.pan_read_dat",
    "Ticdat.pan_read_lol"
   ],
   "note": "what pandas reads is a parameter; generic tables are not modelled"
  },
  {
   "property": "C59",
   "status": "proved",
   "theorems": [
    "Ticdat.pan_file_round_trip",
    "Ticdat.pan_json_round_trip"
   ],
   "note": "the file is any DataFrame that holds the written columns; datetimes and fields of both text and numbers included; the parameters table is covered by C36/C42"
  },
  {
   "property": "C60",
   "status": "partial",
   "theorems": [
    "Ticdat.xls_trailing_blank_partial",
    "Ticdat.prune_exact",
    "Ticdat.xls_blank_becomes_infinity",
    "Ticdat.xls_blank_gets_default"
   ],
   "note": "proved if all fields are columns and null is not read as infinity; false otherwise: blank cells become infinity or default values before trailing rows are removed"
  },
  {
   "property": "C61",
   "status": "proved",
   "theorems": [
    "Ticdat.main_format_unique",
    "Ticdat.main_write_format",
    "Ticdat.main_read_format",
    "Ticdat.main_same_format",
    "Ticdat.main_effects",
    "Ticdat.main_help",
    "Ticdat.main_bad_input",
    "Ticdat.main_errors_sql",
    "Ticdat.main_empty_input"
   ],
   "note": "The Foresta options are not modelled. Findings: the report of a TicDat engine cannot be written to .sql or Access files; an empty input name calls solve(None)."
  },
  {
   "property": "C63",
   "status": "proved",
   "theorems": [
    "Ticdat.add_var_domain",
    "Ticdat.xpress_value",
    "Ticdat.cplex_stale",
    "Ticdat.add_constraint_means",
    "Ticdat.add_indicator_means",
    "Ticdat.set_objective_means",
    "Ticdat.set_parameters_sets",
    "Ticdat.set_parameters_not_atomic",
    "Ticdat.mip_results_last",
    "Ticdat.mip_results_mixed",
    "Ticdat.cplex_value"
   ],
   "note": "What the engines allow for a variable is specified from their manuals. Finding: over cplex a failed optimize leaves the earlier solution in place."
  },
  {
   "property": "C64",
   "status": "proved",
   "theorems": [
    "Ticdat.ampl_format_exact",
    "Ticdat.ampl_format_marker_overlap"
   ],
   "note": "Finding: the check for the markers misses texts that overlap one."
  },
  {
   "property": "C62",
   "status": "proved",
   "theorems": [
    "Ticdat.integrity_report_exact",
    "Ticdat.integrity_report_empty",
    "Ticdat.report_extra_column_message",
    "Ticdat.report_column_order"
   ],
   "note": "Exact content of all four report tables, and emptiness. Findings: with a further column the last cell is shown as error message; with another column order rows are identified by wrong cells; predicates that raise stop the report unless Python runs with -O."
  },
  {
   "property": "C65",
   "status": "proved",
   "theorems": [
    "Ticdat.mdb_write_outcome",
    "Ticdat.mdb_no_overwrite",
    "Ticdat.mdb_round_trip",
    "Ticdat.mdb_none_flag_keyed",
    "Ticdat.mdb_none_flag_fails",
    "Ticdat.mdb_refused_write_changes"
   ],
   "note": "findings: under infinity_io_flag=None infinities in tables with primary key are handed over as they are; a refused write may have written other tables"
  },
  {
   "property": "C66",
   "status": "proved",
   "theorems": [
    "Ticdat.pg_write_outcome",
    "Ticdat.pg_write_succeeds",
    "Ticdat.pg_round_trip",
    "Ticdat.pg_append_existing_key",
    "Ticdat.pg_failed_write_loses_rows",
    "Ticdat.pg_self_reference_order",
    "Ticdat.pg_write_deletes_inactive"
   ],
   "note": "findings: a failed write may lose the old rows; consistent rows of a table that refers to itself may be refused because of their order; inactive rows are deleted"
  },
  {
   "property": "C67",
   "status": "partial",
   "theorems": [
    "Ticdat.csv_find_duplicates_agrees",
    "Ticdat.xls_find_duplicates_agrees",
    "Ticdat.sql_find_duplicates",
    "Ticdat.mdb_find_duplicates",
    "Ticdat.pg_find_duplicates",
    "Ticdat.json_find_duplicates",
    "Ticdat.json_assert_iff_reported",
    "Ticdat.size_add_surplus",
    "Ticdat.db_infinity_flag_merges_unreported",
    "Ticdat.sql_reported_but_kept",
    "Ticdat.json_name_variant_not_checked",
    "Ticdat.xls_reported_but_kept",
    "Ticdat.assert_policy_blind"
   ],
   "note": "Exact reports for every reader; agreement with the table read is full for csv and (with the default treat_inf_as_infinity) Excel. For databases and json the code reads the key cells differently in find_duplicates, so the equality of counts needs that both readings tell the same records apart; witnesses of disagreement are proved. json tables under a variant of their name are read but not checked, so the json theorem asks for exact names. The pandas branch of json find_duplicates is not modelled (that of the reader is C80)."
  },
  {
   "property": "C68",
   "status": "proved",
   "theorems": [
    "Ticdat.pg_write_schema_iff",
    "Ticdat.pg_write_schema_result",
    "Ticdat.pg_schema_then_check",
    "Ticdat.pg_write_schema_bare",
    "Ticdat.pg_column_holds_valid",
    "Ticdat.pg_default_text_exact",
    "Ticdat.pg_schema_key_to_data_field",
    "Ticdat.pg_schema_untyped_reference",
    "Ticdat.pg_schema_circle",
    "Ticdat.pg_schema_neither",
    "Ticdat.pg_schema_default_quote",
    "Ticdat.pg_schema_forced_date_default",
    "Ticdat.pg_schema_infinite_default",
    "Ticdat.pg_schema_bare_parameters",
    "Ticdat.pg_integer_column_infinity",
    "Ticdat.pg_key_infinity_null",
    "Ticdat.pg_bool_default"
   ],
   "note": "PostgreSQL itself is a small model (pgMake): existence, distinct columns, defaults, foreign keys. The witnesses show what a user may not expect: keys to data fields, untyped references, circles, quotes in defaults, infinite defaults, forced dates, and the parameters table without keys."
  },
  {
   "property": "C69",
   "status": "proved",
   "theorems": [
    "Ticdat.pan_state_is_tic_state",
    "Ticdat.pan_used_setters_raise",
    "Ticdat.pan_used_fixed",
    "Ticdat.pan_schema_round_trip",
    "Ticdat.clone_between",
    "Ticdat.pan_clone_remove_column",
    "Ticdat.pan_clone_add_column",
    "Ticdat.pan_clone_add_table",
    "Ticdat.pan_clone_rename_column",
    "Ticdat.set_defaults_agree",
    "Ticdat.links_block_pan_clone",
    "Ticdat.generic_pred_blocks_tic_clone",
    "Ticdat.half_applied_defaults"
   ],
   "note": "States of a PanDatFactory, its behaviour once used, its schema, and clones between the classes, for every call history. clone with table_restrictions is stated for TicDatFactory only (C35). Findings: enabled foreign key links make the clone to a PanDatFactory raise; a predicate on a generic table makes the clone to a TicDatFactory raise; set_default_values of a PanDatFactory can be half applied when it raises."
  },
  {
   "property": "C70",
   "status": "proved",
   "theorems": [
    "Ticdat.copy_from_ampl",
    "Ticdat.keys_only_sets_defaults",
    "Ticdat.ampl_result_shaped",
    "Ticdat.pan_copy_from_ampl",
    "Ticdat.pan_copy_from_ampl_generic",
    "Ticdat.copy_to_ampl",
    "Ticdat.pan_copy_to_ampl",
    "Ticdat.pan_renamed_key_twice",
    "Ticdat.ampl_default_key",
    "Ticdat.ampl_name_field",
    "Ticdat.ampl_generic_blocks"
   ],
   "note": "For schemas where exactly the data fields have defaults (a default on a key field sends rows to the wrong key: ampl_default_key). Scalar (unindexed) AMPL variables, what amplpy does with the DataFrames, and set_ampl_data are not modelled. Values agree up to what pandas stores (None may become NaN)."
  },
  {
   "property": "C71",
   "status": "proved",
   "theorems": [
    "Ticdat.pg_pan_write_outcome",
    "Ticdat.pg_pan_write_succeeds",
    "Ticdat.pg_pan_round_trip",
    "Ticdat.pg_pan_missing_empty",
    "Ticdat.pg_pan_reads_active",
    "Ticdat.pg_pan_stop_loses_rows",
    "Ticdat.pg_pan_failed_write_loses_rows"
   ],
   "note": "database, to_sql and read_sql abstract: what a column stores for a value is a parameter, as is whether to_sql commits each table"
  },
  {
   "property": "C72",
   "status": "proved",
   "theorems": [
    "Ticdat.pan_csv_round_trip",
    "Ticdat.pan_xls_round_trip",
    "Ticdat.pan_sql_round_trip",
    "Ticdat.pan_json_lol_round_trip",
    "Ticdat.pan_json_pd_round_trip",
    "Ticdat.pan_csv_stale",
    "Ticdat.pan_sql_stale",
    "Ticdat.pan_sql_append",
    "Ticdat.pan_file_missing",
    "Ticdat.pan_json_mixed_refused"
   ],
   "note": "What pandas makes of a DataFrame it has written and reads again is a parameter, assumed to keep the columns by name and each cell as the format keeps it. The Excel theorem needs table names that differ in their first 30 characters up to case (the code compares with case, see C37). The stale-spelling theorems state behaviour users may not expect."
  },
  {
   "property": "C73",
   "status": "proved",
   "theorems": [
    "Ticdat.as_dict_contents",
    "Ticdat.as_dict_round_trip",
    "Ticdat.as_dict_generators",
    "Ticdat.as_dict_wide_generic"
   ],
   "note": "Generic tables must come back from DataFrame(to_dict()); one with more columns than rows is refused by the constructor under the default duplicate policy (as_dict_wide_generic)."
  },
  {
   "property": "C74",
   "status": "proved",
   "theorems": [
    "Ticdat.same_data_iff",
    "Ticdat.same_plain_iff",
    "Ticdat.same_data_refl",
    "Ticdat.same_data_not_symmetric",
    "Ticdat.same_data_nan_any_number",
    "Ticdat.same_data_nan_not_refl",
    "Ticdat.same_data_generic_raises",
    "Ticdat.nearlySame_nan"
   ],
   "note": "The characterisation is of what the code does; it departs from equality of data for repeated rows, for NaN with a tolerance, and for generic tables, each shown by a theorem."
  },
  {
   "property": "C75",
   "status": "proved",
   "theorems": [
    "Ticdat.csv_generators_read",
    "Ticdat.csv_generators_present",
    "Ticdat.csv_generators_local",
    "Ticdat.csv_generators_gone",
    "Ticdat.csv_generators_copy",
    "Ticdat.csv_generators_overwrite_loses",
    "Ticdat.sql_generators_read",
    "Ticdat.sql_generators_write",
    "Ticdat.xl_generators_read",
    "Ticdat.xl_generators_present",
    "Ticdat.xl_generators_default_refused",
    "Ticdat.xlsx_generators_overwrite_destroys",
    "Ticdat.xl_generators_write",
    "Ticdat.xl_generators_no_overwrite"
   ],
   "note": "The loss of data on writing over the source (csv, .xlsx) is proved as a theorem about the code. The buffer of the csv writer is taken to hold the header. That SQLite connections see committed data only is part of the model."
  },
  {
   "property": "C76",
   "status": "proved",
   "theorems": [
    "Ticdat.generic_free",
    "Ticdat.csv_generic_read_back",
    "Ticdat.csv_generic_round_trip",
    "Ticdat.generic_name_column",
    "Ticdat.generic_bad_columns",
    "Ticdat.generic_with_generator",
    "Ticdat.csv_generic_stale",
    "Ticdat.sql_generic_table",
    "Ticdat.sql_generic_text_becomes_number",
    "Ticdat.sql_generic_missing",
    "Ticdat.csv_generic_needs_headers",
    "Ticdat.csv_generic_flag",
    "Ticdat.sql_generic_no_overwrite"
   ],
   "note": "csv directories for whole objects, SQLite per table; findings: an old file of a generic table that is now empty stays and is read back, columns called name cannot be written, generator tables in the same schema make writing raise, in SQLite text that reads as a number becomes a number in every table of the schema"
  },
  {
   "property": "C77",
   "status": "proved",
   "theorems": [
    "Ticdat.sqlite_reads_by_name",
    "Ticdat.sqlite_missing_field_raises",
    "Ticdat.sqlite_missing_table_empty",
    "Ticdat.sql_text_missing_table_raises",
    "Ticdat.sqlite_existing_db_round_trip",
    "Ticdat.sqlite_existing_no_overwrite",
    "Ticdat.sqlite_write_missing_table",
    "Ticdat.sqlite_write_local",
    "Ticdat.schema_file_takes_rows",
    "Ticdat.sqlite_duplicate_key_restores",
    "Ticdat.reads_by_any_name",
    "Ticdat.sqlite_existing_db_round_trip_keeps"
   ],
   "note": "The database is a list of named tables with named columns (affinity, default value), a primary key and rows; that a raised exception takes everything back is SQLite's and sqlite3's transaction behaviour, built into the model. Cells of the round trip as in C47 (SqlSafe, SqlParam)."
  },
  {
   "property": "C78",
   "status": "proved",
   "theorems": [
    "Ticdat.copy_pan_dat_same",
    "Ticdat.copy_to_tic_dat_iff",
    "Ticdat.pan_same_iff",
    "Ticdat.pan_same_raises",
    "Ticdat.pan_same_empty_generic"
   ],
   "note": "Keys are compared as they are in the model (1 and True differ). With the policies that accept duplicates the comparison theorem still asks for distinct keys. Freezing the copy is C27."
  },
  {
   "property": "C79",
   "status": "proved",
   "theorems": [
    "Ticdat.reserved_renamed",
    "Ticdat.reserved_undone",
    "Ticdat.reserved_round_trip",
    "Ticdat.case_space_duplicates_iff"
   ],
   "note": "For every environment of characters in which the underscore is the lower case of itself only. Foreign keys, predicates, parameters, tooltips and flags are not copied by the code; the theorems say so (Bare)."
  },
  {
   "property": "C80",
   "status": "partial",
   "theorems": [
    "Ticdat.json_write_only_path",
    "Ticdat.json_write_outcome",
    "Ticdat.json_refusals",
    "Ticdat.looks_pandas_iff",
    "Ticdat.json_file_round_trip",
    "Ticdat.json_to_pandas_dict",
    "Ticdat.json_to_pandas_same",
    "Ticdat.json_reads_pandas_file",
    "Ticdat.json_detection_fails",
    "Ticdat.json_bad_documents"
   ],
   "note": "Writing, its guard, both layouts, to_pandas, detection of the pandas layout and reading it are proved. The full statement is false of the code in corner cases, with witnesses in json_detection_fails: an empty json object is taken for the pandas layout (so a schema with a field called name cannot read it), and if all tables have just the fields columns and data a pandas file is read letter by letter. json_write_outcome shows that a write with allow_overwrite that fails on a cell has already destroyed the old file."
  },
  {
   "property": "C81",
   "status": "proved",
   "theorems": [
    "Ticdat.csv_text_columns",
    "Ticdat.csv_text_exact",
    "Ticdat.csv_numbers_exact",
    "Ticdat.pan_csv_types_round_trip",
    "Ticdat.csv_undeclared_text_lost"
   ],
   "note": "How pandas recognises missing values, numbers and Booleans is a parameter; columns of mixed texts are read as text. The negative half (undeclared codes come back as numbers) is documented behaviour; csv_undeclared_text_lost is a witness for whole objects."
  },
  {
   "property": "C82",
   "status": "proved",
   "theorems": [
    "Ticdat.pan_obfusimplify_renames",
    "Ticdat.pan_obfusimplify_refuses",
    "Ticdat.pan_obfusimplify_returns",
    "Ticdat.pan_obfusimplify_example"
   ],
   "note": "The tables are not generic. The list of foreign keys after add_implied_foreign_keys is any list of good keys. The sort order and the order of sets are arbitrary."
  },
  {
   "property": "C83",
   "status": "proved",
   "theorems": [
    "Ticdat.deep_freeze_spec",
    "Ticdat.deep_copy_spec",
    "Ticdat.deep_copy_datetime",
    "Ticdat.deep_copy_splits",
    "Ticdat.deep_freeze_factory",
    "Ticdat.factory_shows_copies",
    "Ticdat.factory_shows_frozen",
    "Ticdat.primary_key_fields_is_own",
    "Ticdat.data_fields_is_own",
    "Ticdat.parameter_default_is_own"
   ],
   "note": "Proved by induction on nested objects with identities. Findings: primary_key_fields and data_fields return the factory's own dictionaries; parameters shares a default value that can change (only without type rules); deep_copy raises for datetimes; a list that occurs twice is two lists in the copy."
  },
  {
   "property": "C84",
   "status": "partial",
   "theorems": [
    "Ticdat.mip_progress_accepts_iff",
    "Ticdat.mip_progress_ordered",
    "Ticdat.mip_progress_prints",
    "Ticdat.numerical_progress_spec",
    "Ticdat.callbacks_pass_bounds",
    "Ticdat.callbacks_never_disturb",
    "Ticdat.cplex_listener_raises",
    "Ticdat.mip_progress_inf"
   ],
   "note": "False of the code in one case: before cplex has an incumbent its listener passes a dictionary as bound and raises (cplex_listener_raises). Everything else is proved. Arithmetic is exact, not floating point."
  },
  {
   "property": "C85",
   "status": "proved",
   "theorems": [
    "Ticdat.log_table_raises_iff",
    "Ticdat.log_table_shows",
    "Ticdat.log_table_no_file",
    "Ticdat.log_table_ambiguous",
    "Ticdat.log_table_negative"
   ],
   "note": "Findings: cells that fill their column run into the next; a max_write of -2 or less leaves out rows from the end."
  },
  {
   "property": "C86",
   "status": "partial",
   "theorems": [
    "Ticdat.reads_current_partial",
    "Ticdat.first_read_wins",
    "Ticdat.bias_current",
    "Ticdat.stale_settings"
   ],
   "note": "False of the code in general: settings remembered by find_duplicates or by a failed read are not forgotten when set_data_type or set_default_value is called later (stale_settings). Proved: current as long as types and defaults do not change between the first read and the first TicDat; exact description of what is used otherwise; the infinity signs are always current."
  },
  {
   "property": "C87",
   "status": "proved",
   "theorems": [
    "Ticdat.tic_setters_exact",
    "Ticdat.pan_setters_exact",
    "Ticdat.safeCreator_iff",
    "Ticdat.set_default_values_not_atomic"
   ],
   "note": "All calls of both classes. The partial effect of a raising set_default_values is part of the statement and shown by an example."
  },
  {
   "property": "C88",
   "status": "proved",
   "theorems": [
    "Ticdat.csv_write_refused",
    "Ticdat.csv_write_outcome",
    "Ticdat.csv_write_succeeds",
    "Ticdat.csv_write_keeps",
    "Ticdat.csv_torn_directory",
    "Ticdat.xl_write_refused",
    "Ticdat.xl_write_outcome",
    "Ticdat.xl_write_keeps",
    "Ticdat.xlsx_failed_write_loses_file",
    "Ticdat.sql_text_write_outcome",
    "Ticdat.sql_text_failed_write_empties",
    "Ticdat.sqlite_write_outcome",
    "Ticdat.sqlite_failed_write_leaves_file"
   ],
   "note": "Generic and generator tables are not in this model (C75, C76); a path can be opened unless it is a directory."
  },
  {
   "property": "C89",
   "status": "proved",
   "theorems": [
    "Ticdat.mdb_reads_by_name",
    "Ticdat.mdb_missing_table_empty",
    "Ticdat.mdb_missing_field_raises",
    "Ticdat.two_candidates_raise",
    "Ticdat.mdb_generators_read",
    "Ticdat.mdb_existing_refines",
    "Ticdat.mdb_existing_local",
    "Ticdat.mdb_existing_round_trip",
    "Ticdat.mdb_existing_outcome",
    "Ticdat.reads_by_any_name"
   ],
   "note": "mdb_existing_refines relates the write to that into a database of write_schema (C65), mdb_existing_outcome and mdb_existing_round_trip are what follows. mdb_existing_refused_changes: a refused write may have filled earlier tables."
  },
  {
   "property": "C90",
   "status": "proved",
   "theorems": [
    "Ticdat.mdb_write_schema_outcome",
    "Ticdat.mdb_write_schema_iff",
    "Ticdat.mdb_write_schema_twice",
    "Ticdat.mdb_schema_then_write",
    "Ticdat.mdb_new_file_round_trip",
    "Ticdat.mdb_write_needs_tables",
    "Ticdat.mdb_half_schema"
   ],
   "note": "What Access refuses besides existing tables, empty tables and repeated columns is an arbitrary predicate on the declared table; what a column stores is the abstract store of C89. mdb_half_schema is the witness for files left behind with half a schema."
  },
  {
   "property": "C91",
   "status": "proved",
   "theorems": [
    "Ticdat.set_ampl_calls",
    "Ticdat.set_ampl_order",
    "Ticdat.copied_can_be_set",
    "Ticdat.set_ampl_depends_on_order"
   ],
   "note": "AMPL is an arbitrary partial function on an arbitrary state; the iteration order is an arbitrary permutation of the tables of the object. set_ampl_depends_on_order is the witness for the dependence on the order."
  },
  {
   "property": "C92",
   "status": "proved",
   "theorems": [
    "Ticdat.fk_report_exact",
    "Ticdat.pan_fk_report_exact",
    "Ticdat.pan_fk_report_limit",
    "Ticdat.report_says"
   ],
   "note": "For PanDat objects the foreign keys are those for which the join is exact (PanFKOK), as in C05; the check that the object is good is not part of this model."
  },
  {
   "property": "C93",
   "status": "proved",
   "theorems": [
    "Ticdat.pan_csv_disk",
    "Ticdat.pan_xls_disk",
    "Ticdat.pan_json_disk",
    "Ticdat.pan_json_pd_disk",
    "Ticdat.pan_json_loses",
    "Ticdat.pan_sql_disk",
    "Ticdat.panHanded_iff"
   ],
   "note": "What pandas, ExcelWriter and json.dump do with a file is a parameter, also when they raise; the SQLite part is about the tables that to_sql has written, not about transactions of sqlite3."
  },
  {
   "property": "C94",
   "status": "proved",
   "theorems": [
    "Ticdat.sloc_matches",
    "Ticdat.sloc_as_loc",
    "Ticdat.sloc_like_slicer",
    "Ticdat.sloc_columns",
    "Ticdat.sloc_of_table",
    "Ticdat.sloc_hides_mistakes"
   ],
   "note": "pandas' .loc is an arbitrary function that is trusted, for tuples of labels and full slices, to answer with the agreeing rows if it answers and to answer if there are any (LocOK); it may raise or not if there are none. sloc_hides_mistakes is a finding."
  }
 ]
}