{"id": "C01", "title": "find_foreign_key_failures is exact", "statement": "find_foreign_key_failures(dat) reports the native row r under foreign key k if and only if r is a row of k's native table and no row of k's foreign table agrees with r on every mapped field pair; a foreign key appears in the result only if it has at least one failing row.", "quantifier": "all schemas, all sets of foreign keys with distinct foreign fields, all data objects (keyed and un-keyed tables)", "why_tests_cant": "soundness and completeness over every data set and every set of declared keys; a test fixes one schema and a handful of rows", "anchors": ["ticdat/ticdatfactory.py:find_foreign_key_failures", "ticdat/ticdatfactory.py:_foreign_keys_by_native", "ticdat/utils.py:ForeignKey"]}
{"id": "C02", "title": "max_failures truncates but never invents foreign key failures", "statement": "With max_failures=n>=1, every row reported by find_foreign_key_failures is a genuine failure, the total number of reported rows is exactly min(n, total number of failures), and a result is empty only if there are no failures.", "quantifier": "all schemas, foreign keys, data objects and all n >= 1", "why_tests_cant": "the counter is shared across keys and tables; early exits depend on the data", "anchors": ["ticdat/ticdatfactory.py:find_foreign_key_failures"]}
{"id": "C03", "title": "remove_foreign_key_failures terminates with a clean data object", "statement": "remove_foreign_key_failures(dat) terminates on every data object and afterwards find_foreign_key_failures reports nothing.", "quantifier": "all schemas (including circular and self-referential foreign keys), all data objects", "why_tests_cant": "the number of cascading rounds is unbounded and depends on the data", "anchors": ["ticdat/ticdatfactory.py:remove_foreign_key_failures", "ticdat/ticdatfactory.py:find_foreign_key_failures"]}
{"id": "C04", "title": "remove_foreign_key_failures removes exactly the rows that must go", "statement": "The result of remove_foreign_key_failures is the greatest sub-collection of the original rows with no foreign key failures: rows are only ever removed, never altered or reordered, any foreign-key-consistent sub-collection survives in full, and data with no failures is returned unchanged.", "quantifier": "all schemas, foreign keys and data objects", "why_tests_cant": "maximality quantifies over every consistent sub-database", "anchors": ["ticdat/ticdatfactory.py:remove_foreign_key_failures"]}
{"id": "C05", "title": "pandas and dict versions of remove_foreign_key_failures agree, in any order", "statement": "Removing failures one foreign key at a time, in any order that only stops when no failures remain (what PanDatFactory does), ends with the same rows as removing all failures of every foreign key per round (what TicDatFactory does).", "quantifier": "all schemas, data objects and all orders in which the foreign keys are visited", "why_tests_cant": "order independence quantifies over all schedules of removals", "anchors": ["ticdat/pandatfactory.py:remove_foreign_key_failures", "ticdat/ticdatfactory.py:remove_foreign_key_failures"]}
{"id": "C06", "title": "add_implied_foreign_keys does not change the integrity verdict", "statement": "After add_implied_foreign_keys a data object has a foreign key failure if and only if it had one before.", "quantifier": "all schemas, all sets of foreign keys, all data objects", "why_tests_cant": "relates two different constraint sets over all data; adding implied keys iterates to a fixed point", "anchors": ["ticdat/ticdatfactory.py:add_implied_foreign_keys"]}
{"id": "C07", "title": "circular foreign key warning is exact", "statement": "Adding a foreign key is flagged as completing a circle if and only if there is a path of already declared foreign keys from the new foreign table back to the new native table.", "quantifier": "all sets of foreign keys and all new keys", "why_tests_cant": "reachability over arbitrary graphs", "anchors": ["ticdat/utils.py:does_new_fk_complete_circle", "ticdat/ticdatfactory.py:add_foreign_key"]}
{"id": "C08", "title": "postgres table order is a dependency order", "statement": "The order in which postgres tables are created and written lists every table exactly once, and when the foreign keys are acyclic (self references aside) every foreign table comes before each of its native tables.", "quantifier": "all schemas and sets of foreign keys", "why_tests_cant": "a depth first search over arbitrary graphs, including cyclic ones where it must still terminate", "anchors": ["ticdat/pgtd.py:_ordered_tables"]}
{"id": "C09", "title": "sqlite table order is a dependency order", "statement": "The order in which sqlite tables are created and written lists every table exactly once with foreign tables first, whenever the foreign keys are acyclic.", "quantifier": "all schemas and acyclic sets of foreign keys", "why_tests_cant": "termination and order over arbitrary graphs", "anchors": ["ticdat/sqlitetd.py:_ordered_tables"]}
{"id": "C10", "title": "database writes never pass through a state that breaks a foreign key", "statement": "When a foreign-key-consistent data object is written to postgres with acyclic foreign keys, the database satisfies every foreign key constraint after each single table delete and each single table insert.", "quantifier": "all acyclic schemas, all consistent old and new data, every intermediate point of the write", "why_tests_cant": "the claim is about every intermediate state of every write", "anchors": ["ticdat/pgtd.py:_handle_prexisting_rows", "ticdat/pgtd.py:write_data", "ticdat/pgtd.py:_ordered_tables"]}
{"id": "C11", "title": "find_data_type_failures is exact", "statement": "find_data_type_failures(dat) reports row r under (table, field) if and only if the field has a data type (or is an untyped primary key field, which only excludes null) and the value of the field in r is invalid for it; the reported bad values are exactly the invalid values that occur.", "quantifier": "all schemas, data types and data objects", "why_tests_cant": "soundness and completeness over all data", "anchors": ["ticdat/ticdatfactory.py:find_data_type_failures"]}
{"id": "C12", "title": "replace_data_type_failures repairs data cells and nothing else", "statement": "After replace_data_type_failures no non-primary-key typed field has a data type failure, every cell that was valid (and every primary key) is unchanged, the set of rows is unchanged, and applying it twice is the same as applying it once; if a replacement is itself invalid the call is refused and nothing is changed.", "quantifier": "all schemas, data types, defaults, replacement values and data objects", "why_tests_cant": "frame and idempotence conditions over all data", "anchors": ["ticdat/ticdatfactory.py:replace_data_type_failures", "ticdat/pandatfactory.py:replace_data_type_failures"]}
{"id": "C13", "title": "data type validity is the documented rule", "statement": "A value is valid for a data type iff: null and nullable; a datetime (or parsable date string) and datetime is allowed; a string and strings are allowed (either any, or in the list); a non-boolean number within the bounds respecting inclusivity and integrality and number_allowed.", "quantifier": "all values and all data types", "why_tests_cant": "an eight-parameter decision procedure over an infinite value domain", "anchors": ["ticdat/utils.py:TypeDictionary.valid_data"]}
{"id": "C14", "title": "set_data_type normalises and validates its arguments consistently", "statement": "A data type accepted by set_data_type is a fixed point: feeding its recorded attributes back yields the same data type; number_allowed=False implies bounds recorded as 0/inf/inclusive; contradictory arguments are refused.", "quantifier": "all argument combinations", "why_tests_cant": "all combinations of eight arguments over infinite domains", "anchors": ["ticdat/utils.py:TypeDictionary.safe_creator", "ticdat/ticdatfactory.py:set_data_type"]}
{"id": "C15", "title": "find_data_row_failures is exact", "statement": "find_data_row_failures(dat) reports row r under (table, predicate) iff the predicate rejects r; the mode that treats exceptions as failures and the mode that treats non-True results as failure messages partition rows the same way; with max_failures the total count is min(n,total).", "quantifier": "all predicates, data objects, exception behaviours and limits", "why_tests_cant": "predicates are arbitrary functions that may raise", "anchors": ["ticdat/ticdatfactory.py:find_data_row_failures"]}
{"id": "C16", "title": "automatically chosen predicate names never clobber a predicate", "statement": "add_data_row_predicate without a name adds a new predicate and leaves all existing predicates in place, after any history of additions and removals.", "quantifier": "all histories of add/remove with and without names", "why_tests_cant": "quantifies over operation histories", "anchors": ["ticdat/ticdatfactory.py:add_data_row_predicate"]}
{"id": "C17", "title": "create_full_parameters_dict overlays data on defaults", "statement": "create_full_parameters_dict(dat) maps p to the table's value if the parameters table has a row for p and to the declared default otherwise, and contains nothing else.", "quantifier": "all parameter declarations and parameters tables", "why_tests_cant": "all keys", "anchors": ["ticdat/ticdatfactory.py:create_full_parameters_dict", "ticdat/pandatfactory.py:create_full_parameters_dict"]}
{"id": "C18", "title": "full schema round trip", "statement": "create_from_full_schema(tdf.schema(include_ancillary_info=True)) reproduces the schema, foreign keys, defaults, data types, parameters, flags and tooltips of tdf.", "quantifier": "all factory states reachable by the public setters", "why_tests_cant": "round trip over all reachable factory states", "anchors": ["ticdat/ticdatfactory.py:schema", "ticdat/ticdatfactory.py:create_from_full_schema"]}
{"id": "C19", "title": "infinity_io_flag round trip", "statement": "In every table but parameters: writing a number with a numeric infinity flag and reading it back returns the original value for every infinity and every finite number smaller than the flag; with the None flag every value valid for its field is returned, infinities included, unless the field's type makes None ambiguous, and then writing raises; other values are untouched unless the field is a datetime or an automunged multi-type field.", "quantifier": "all flags, data types, fields and values", "why_tests_cant": "two functions with interacting special cases over an infinite value domain", "anchors": ["ticdat/ticdatfactory.py:_infinity_flag_write_cell", "ticdat/ticdatfactory.py:_general_read_cell", "ticdat/ticdatfactory.py:_none_as_infinity_bias"]}
{"id": "C20", "title": "json round trip", "statement": "json.create_tic_dat(json.write_file(dat)) equals dat for verbose and non-verbose output, for data made of strings, numbers, booleans and None, with rows in order.", "quantifier": "all schemas, data objects, verbose or not", "why_tests_cant": "round trip over all data", "anchors": ["ticdat/jsontd.py:make_json_dict", "ticdat/jsontd.py:_create_tic_dat_dict"]}
{"id": "C21", "title": "csv and json and excel table names are matched unambiguously", "statement": "A file, key or sheet written under a table's name or under its pretty (case-space) name is matched on reading to that table and to no other table of the schema.", "quantifier": "all schemas", "why_tests_cant": "string functions over all table names", "anchors": ["ticdat/utils.py:case_space_to_pretty", "ticdat/csvtd.py:_get_file_path", "ticdat/jsontd.py:_create_tic_dat_dict"]}
{"id": "C22", "title": "csv header matching", "statement": "Reading a csv file assigns each schema field the column whose header equals it case-insensitively, is independent of the column order, ignores extra columns, and refuses missing or ambiguous columns.", "quantifier": "all headers, column orders and schemas", "why_tests_cant": "all permutations and extra columns", "anchors": ["ticdat/csvtd.py:_get_data"]}
{"id": "C23", "title": "sqlite .sql text quoting", "statement": "A string cell written to a .sql file is read back as the same string.", "quantifier": "all strings", "why_tests_cant": "all strings; quoting bugs hide in rare characters", "anchors": ["ticdat/sqlitetd.py:_fix_str", "ticdat/sqlitetd.py:_insert_format"]}
{"id": "C24", "title": "underscore/space variants of a table name", "statement": "When reading a database the candidate names for a table are exactly the strings obtained by replacing any subset of underscores by spaces, each once.", "quantifier": "all table names", "why_tests_cant": "2^n variants for arbitrary n", "anchors": ["ticdat/utils.py:all_underscore_replacements", "ticdat/utils.py:all_subsets"]}
{"id": "C25", "title": "Slicer returns exactly the matching indices", "statement": "slice(*args) returns exactly the tuples that agree with args at every non-wildcard position, in their original order, whatever slices or clears happened before.", "quantifier": "all index collections, all argument tuples, all histories of slice/clear calls", "why_tests_cant": "the internal cache makes the answer history dependent; histories are unbounded", "anchors": ["ticdat/utils.py:Slicer"]}
{"id": "C26", "title": "find_duplicates counts are exact", "statement": "find_duplicates reports a primary key value iff it occurs in at least two rows, with its exact number of occurrences, and reports a table only if it has a duplicate.", "quantifier": "all data", "why_tests_cant": "counts over all row lists", "anchors": ["ticdat/utils.py:find_duplicates", "ticdat/utils.py:find_duplicates_from_dict_ticdat"]}
{"id": "C27", "title": "frozen data objects cannot be changed", "statement": "After freeze_me no sequence of operations on the data object, its tables or its rows changes its contents; each attempt raises and leaves the object unchanged; unfrozen objects are unaffected.", "quantifier": "all sequences of mutating operations", "why_tests_cant": "quantifies over operation histories", "anchors": ["ticdat/ticdatfactory.py:freeze_me", "ticdat/utils.py:freezable_factory", "ticdat/utils.py:FreezeableDict", "ticdat/utils.py:td_row_factory"]}
{"id": "C28", "title": "a factory's schema is fixed once used", "statement": "After a factory has produced a data object, no foreign key, default value, generator table or data type setter can change it: every such call raises and leaves the factory unchanged.", "quantifier": "all histories of factory calls", "why_tests_cant": "quantifies over call histories", "anchors": ["ticdat/ticdatfactory.py:_trigger_has_been_used", "ticdat/ticdatfactory.py:add_foreign_key", "ticdat/ticdatfactory.py:set_data_type", "ticdat/ticdatfactory.py:set_default_value"]}
{"id": "C29", "title": "table dictionaries keep key and row shapes", "statement": "After any history of item assignment, lookup and deletion on a keyed table, every key has as many entries as the table has primary key fields, and every row has exactly the table's data fields; looking up a missing key inserts a default row.", "quantifier": "all histories of table operations", "why_tests_cant": "quantifies over operation histories", "anchors": ["ticdat/ticdatfactory.py:TicDatDict", "ticdat/utils.py:td_row_factory"]}
{"id": "C30", "title": "row assignment fills defaults and rejects unknown fields", "statement": "Assigning a dict to a keyed table stores the supplied values with defaults for missing fields and is refused iff an unknown field is present; assigning a list of exactly the right length stores it positionally and is refused otherwise.", "quantifier": "all rows and defaults", "why_tests_cant": "all dicts and lists", "anchors": ["ticdat/utils.py:td_row_factory"]}
{"id": "C31", "title": "copies are equal and independent", "statement": "copy_tic_dat(dat) has the same data as dat, and later changes to one are not visible in the other.", "quantifier": "all data objects and later mutation histories", "why_tests_cant": "aliasing over all later histories", "anchors": ["ticdat/ticdatfactory.py:copy_tic_dat", "ticdat/utils.py:deep_copy", "ticdat/ticdatfactory.py:_same_data"]}
{"id": "C32", "title": "postgres names are legal and stable", "statement": "The postgres name of a table or field is made of lower case letters, digits and underscores, and mapping it again does not change it.", "quantifier": "all names", "why_tests_cant": "all strings", "anchors": ["ticdat/pgtd.py:_pg_name"]}
{"id": "C33", "title": "trailing empty rows are pruned exactly", "statement": "remove_trailing_all_nan removes exactly the maximal block of all-NaN rows at the end of a table and nothing else.", "quantifier": "all tables", "why_tests_cant": "a binary search whose correctness depends on monotonicity over all row counts", "anchors": ["ticdat/pandatfactory.py:remove_trailing_all_nan", "ticdat/pandatfactory.py:_find_number_all_nan_last_rows"]}
{"id": "C34", "title": "obfusimplify is an injective renaming", "statement": "obfusimplify renames every entity consistently: two cells of the same entity get equal names iff they were equal, names of different entities never clash, and foreign keys that held still hold.", "quantifier": "all schemas and data", "why_tests_cant": "injectivity over all data", "anchors": ["ticdat/ticdatfactory.py:obfusimplify"]}
{"id": "C35", "title": "clone column edits only touch what they name", "statement": "clone_add_a_column, clone_remove_a_column and clone_rename_a_column change only the named column's place in the schema and drop or rename exactly the ancillary information that mentions it.", "quantifier": "all schemas and columns", "why_tests_cant": "all factory states", "anchors": ["ticdat/utils.py:clone_add_a_column", "ticdat/utils.py:clone_remove_a_column", "ticdat/utils.py:clone_rename_a_column"]}
{"id": "C36", "title": "parameters survive a text round trip", "statement": "A parameters table written as text and read back has valid numbers as the same numbers, and valid text of parameters that allow no numbers as the same text; text of other parameters survives if it does not read as a number.", "quantifier": "all parameter declarations and values", "why_tests_cant": "all values; type confusion between digits and numbers", "anchors": ["ticdat/ticdatfactory.py:_parameter_table_post_read_adjustment"]}
{"id": "C37", "title": "truncated sheet name collisions are detected", "statement": "If the check for differentiable sheet names passes then no two tables of the schema are matched to the same truncated sheet name.", "quantifier": "all schemas", "why_tests_cant": "all sets of long table names", "anchors": ["ticdat/xls.py:_verify_differentiable_sheet_names"]}
{"id": "C38", "title": "writing never overwrites a file without permission", "statement": "With allow_overwrite=False a csv write either raises before touching anything or writes only files that did not exist.", "quantifier": "all directory contents and schemas", "why_tests_cant": "all directory states", "anchors": ["ticdat/csvtd.py:write_directory"]}
{"id": "C39", "title": "nearly_same is symmetric, reflexive, and scale bounded", "statement": "nearly_same(a,b) is symmetric and reflexive on finite numbers and on infinities.", "quantifier": "all numbers and tolerances", "why_tests_cant": "all numbers", "anchors": ["ticdat/utils.py:per_error", "ticdat/utils.py:nearly_same"]}
{"id": "C40", "title": "foreign key cardinality is many-to-one vs one-to-one exactly", "statement": "A foreign key is reported one-to-one exactly when its native fields determine the native row (they include the whole primary key), and many-to-one otherwise.", "quantifier": "all schemas and keys", "why_tests_cant": "for all data objects: at most one native row per foreign row", "anchors": ["ticdat/ticdatfactory.py:foreign_keys"]}
{"id": "C41", "title": "clone(convert_dat) converts only for the predicates that were cloned", "statement": "After clone(convert_dat=f), the keyword arguments of a row predicate that was on the original factory are made from f(dat), and those of a predicate added to the clone afterwards are made from dat itself.", "quantifier": "all factories, converters, makers and later predicates", "why_tests_cant": "depends on which predicates share a maker and in which order they run", "anchors": ["ticdat/ticdatfactory.py:clone", "ticdat/ticdatfactory.py:find_data_row_failures"]}
{"id": "C42", "title": "PanDat infinity flags and parameters round trip", "statement": "For every column, PanDat's adjustments before writing and after reading compose to the identity on infinities and on finite numbers smaller than a numeric flag, and on valid values with the None flag; PanDat writes the same cells as TicDat; parameters written as text come back as the same numbers and texts.", "quantifier": "all flags, data types, columns", "why_tests_cant": "the adjustments are whole-column updates guarded by whole-column tests", "anchors": ["ticdat/pandatfactory.py:_general_post_read_adjustment", "ticdat/pandatfactory.py:_pre_write_adjustment"]}
{"id": "C43", "title": "the infinity flag does not apply to the parameters table", "statement": "No infinity replacement is done on the parameters table, on writing or on reading.", "quantifier": "all flags, values and parameter declarations", "why_tests_cant": "all values", "anchors": ["ticdat/ticdatfactory.py:set_infinity_io_flag", "ticdat/ticdatfactory.py:_infinity_flag_write_cell", "ticdat/ticdatfactory.py:_general_read_cell"]}
{"id": "C44", "title": "postgres compatibility check", "statement": "If the postgres compatibility check of a schema passes, every table has its own name as postgres name, the columns of a table have distinct names, and no column name is a reserved word.", "quantifier": "all schemas", "why_tests_cant": "Which names collide after cleaning depends on every pair of field names.", "anchors": ["ticdat/pgtd.py:_pg_name", "ticdat/pgtd.py:PostgresTicFactory._check_good_pgtd_compatible_table_field_names"]}
{"id": "C45", "title": "Building a data object keeps every row under its own key", "statement": "Passing rows to the TicDat constructor yields every schema table and nothing else: dictionaries keep their keys in order with defaults filled in, lists of rows give each key the data of its last row (and the rows unchanged and in order when keys differ), unacceptable rows or unknown tables raise, and with the 'assert' duplicates policy the constructor raises exactly when two list rows of one table share a primary key.", "quantifier": "every schema, every set of input tables given as dictionaries or lists of rows, every mix of row formats", "why_tests_cant": "Row formats, key counts and duplicate positions combine without bound; tests try a few layouts.", "anchors": ["ticdat/ticdatfactory.py:TicDatFactory.__init__ (TicDat.__init__)", "ticdat/ticdatfactory.py:_good_tic_dat_table_for_init", "ticdat/utils.py:td_row_factory"]}
{"id": "C46", "title": "A csv directory gives back the object that was written to it", "statement": "Writing a data object to a directory with csv.write_directory and reading the directory with csv.create_tic_dat (headers written and expected, or neither) yields an object with the same tables, the same primary keys, the same rows in the same order and the same cell values, provided that numbers sit in fields whose type or default value is numeric, None sits in fields whose type is nullable or whose default is None, text in such fields is not the empty text or a text that reads as a number, and parameters are valid for their types. It does so for plain and pretty file names, for every infinity flag, and next to any other files that are not taken for a table; those files are left alone.", "quantifier": "all schemas, data objects, default values, data types, infinity flags, parameters, header and naming options, previous directory contents and listing orders", "why_tests_cant": "number of tables, rows and files is unbounded and cell text, types, defaults, flags and parameter adjustment interact", "anchors": ["ticdat/csvtd.py:CsvTicFactory.write_directory", "ticdat/csvtd.py:CsvTicFactory.create_tic_dat", "ticdat/csvtd.py:CsvTicFactory._read_cell", "ticdat/csvtd.py:CsvTicFactory._get_data", "ticdat/ticdatfactory.py:TicDatFactory._parameter_table_post_read_adjustment"]}
{"id": "C47", "title": "A SQLite database or .sql file gives back the object that was written to it", "statement": "Writing a data object with sql.write_db_data (to a new database file, or to one that has the schema's tables empty or may be overwritten) or with sql.write_sql_file, and reading it back, yields an object with the same tables, primary keys, rows and cell values, in whatever order SQLite returns the rows, and leaves other tables of the database alone; provided that no text is a spelling of true, false or (without infinity flag) inf, no text in a column whose default value is a number reads as a number, no cell is NaN, tables without primary key hold no Booleans, types, automunge and parameters do not reinterpret the cell, and for .sql files texts have no semicolon and no adjacent quotes and infinities are either unflagged or in keyed tables under a numeric flag.", "quantifier": "all schemas, data objects, default values, data types, infinity flags, parameters, previous database contents and row orders", "why_tests_cant": "number of tables and rows is unbounded, SQLite may return rows in any order, and column types, flags, Booleans, quoting and parameter adjustment interact", "anchors": ["ticdat/sqlitetd.py:SQLiteTicFactory.write_db_data", "ticdat/sqlitetd.py:SQLiteTicFactory.write_sql_file", "ticdat/sqlitetd.py:SQLiteTicFactory.create_tic_dat", "ticdat/sqlitetd.py:SQLiteTicFactory.create_tic_dat_from_sql", "ticdat/sqlitetd.py:_insert_format", "ticdat/sqlitetd.py:SQLiteTicFactory._read_data_cell"]}
{"id": "C48", "title": "Excel files written by write_file are read back to the same data", "statement": "For a factory whose tables all have fields, and a data object whose cells are of the kinds an Excel file can hold, xls.write_file followed by xls.create_tic_dat on that file gives a data object with the same tables, keys, rows and order of rows, for .xls and .xlsx files, with or without case_space_sheet_names, and whether or not trailing empty rows are pruned. The kinds that survive are listed in the specification: finite numbers, infinities where the treat_inf_as_infinity argument or the infinity flag restores them, None where empty cells are read as None, dates and Booleans where the format keeps them, and text that is not empty, does not spell an infinity and is not taken for a formula. Outside of that list: text like =A1 changes, empty text becomes None (.xlsx), None becomes empty text (.xls), Booleans become numbers (.xls), text Inf becomes a number, an infinity becomes the text inf, NaN raises (.xlsx), a last row of None is lost.", "quantifier": "every schema, every data object with cells of the listed kinds, both file kinds, every flag and type declaration, every order of the sheets in the file", "why_tests_cant": "tests write a handful of data sets; the claim ranges over all schemas, cell values, type and flag settings and sheet orders", "anchors": ["ticdat/xls.py:XlsTicFactory.write_file", "ticdat/xls.py:XlsTicFactory.create_tic_dat", "ticdat/xls.py:XlsTicFactory._create_tic_dat_dict", "ticdat/xls.py:XlsTicFactory._sub_tuple", "ticdat/xls.py:XlsTicFactory._get_sheets_and_fields", "ticdat/ticdatfactory.py:TicDatFactory._general_read_cell"]}
{"id": "C49", "title": "Excel sheets are read by header, wherever the columns and the table are", "statement": "A sheet made of any rows on top, a header row and rows of data, read with row_offsets giving the number of rows on top, yields exactly its rows of data in order, each field taken from the one column whose header equals the field name up to case, whatever the order of the columns and whatever other columns there are; without headers the first columns are taken in order. For .xlsx files this fails if the rows on top are blank: under the default pruning as many rows as are blank on top are silently dropped from the end of the data.", "quantifier": "every sheet content, every number of top rows, every column order and extra columns, both file kinds", "why_tests_cant": "a test has one layout; the claim is over all layouts, and the loss of rows depends on blank rows above the table", "anchors": ["ticdat/xls.py:_OpenPyxlSheetWrapper", "ticdat/xls.py:XlsTicFactory._sub_tuple", "ticdat/xls.py:XlsTicFactory._get_field_indicies"]}
{"id": "C50", "title": "Readers take each table from its own file, sheet, key or database table only", "statement": "For csv directories, json files, Excel files and SQLite databases, what create_tic_dat returns for a table depends only on the files, sheets, keys or database tables whose name matches that table. Everything else in the source can be changed, added or removed without any effect, including on whether the call raises. A table with no match is empty in the result, and a table with two matches makes the call raise.", "quantifier": "every schema, every content of the directory, file or database, every table", "why_tests_cant": "a test adds one stray sheet or file; independence must hold for every content of the unmatched parts", "anchors": ["ticdat/csvtd.py:CsvTicFactory.create_tic_dat", "ticdat/csvtd.py:CsvTicFactory._get_file_path", "ticdat/jsontd.py:JsonTicFactory._create_tic_dat_dict", "ticdat/xls.py:XlsTicFactory._get_sheets_and_fields", "ticdat/sqlitetd.py:SQLiteTicFactory._get_table_names"]}
{"id": "C51", "title": "A TicDat built from DataFrames has the rows of the DataFrames", "statement": "TicDat(**frames) succeeds exactly when every DataFrame is for a table of the schema, each data field is a column or has a default value, and the primary key fields are columns (or have defaults) or are the named index, no field that the code reserves ('name') is in the way and, under the default policy for duplicates, no key occurs twice. The resulting table has, for each key that occurs, the values of the last row with that key, each field taken from the column of its name, else the default value, else the index; without primary key the rows in order. Tables that are not passed are empty.", "quantifier": "every schema with default values and every family of DataFrames with named or unnamed index, any columns and any rows", "why_tests_cant": "Tests use a few frames; whether columns, defaults and index levels are combined properly for every arrangement is a statement over all of them.", "anchors": ["ticdat/ticdatfactory.py::TicDatFactory.__init__", "ticdat/ticdatfactory.py::TicDatFactory.good_tic_dat_table", "ticdat/pandatfactory.py::PanDatFactory._copy_to_tic_dat", "ticdat/utils.py::faster_df_apply"]}
{"id": "C52", "title": "copy_to_pandas loses nothing but the difference between None and NaN", "statement": "copy_to_pandas followed by building a TicDat from the resulting DataFrames gives back the same keys, rows and order for every table, whatever drop_pk_columns and reset_index are, up to pandas turning None into NaN, for schemas whose key fields have no default values when the key goes to the index and without fields called name. Without None in the data the table comes back exactly.", "quantifier": "every table class, table, value of drop_pk_columns and reset_index, and every way of pandas to store the values that keeps all but None", "why_tests_cant": "The equality is between arbitrary tables and depends on which key fields are dropped, on empty tables and on single or multi-field keys.", "anchors": ["ticdat/ticdatfactory.py::TicDatFactory.copy_to_pandas", "ticdat/ticdatfactory.py::TicDatFactory.__init__"]}
{"id": "C53", "title": "A PanDat holds the given DataFrames with the fields first", "statement": "PanDat(**frames) succeeds exactly when for each DataFrame the fields are columns or have default values, or the primary key is the index, or the columns are numbered and there are enough of them. Each DataFrame of the result has the fields as first columns in the order of the schema, then the other columns in their order; each row is kept in place, with its value for each field (column, index level, position or default) and for each other column. The result is accepted by good_pan_dat_object, copying it changes nothing, and copy_to_tic_dat gives the keys and data of the rows. The documented arguments of copy_to_pandas give objects that good_pan_dat_object accepts.", "quantifier": "every table class with default values and every DataFrame with any index, any columns, in any order, and any rows", "why_tests_cant": "The reordering, renaming, index and default rules interact; tests sample a few of the combinations.", "anchors": ["ticdat/pandatfactory.py::PanDatFactory.__init__", "ticdat/pandatfactory.py::PanDatFactory.good_pan_dat_object", "ticdat/pandatfactory.py::PanDatFactory.copy_pan_dat", "ticdat/pandatfactory.py::PanDatFactory.copy_to_tic_dat", "ticdat/ticdatfactory.py::TicDatFactory.copy_to_pandas"]}
{"id": "C54", "title": "good_tic_dat_object is exact, and agrees with the constructor", "statement": "good_tic_dat_object (default row checking) returns True exactly if the object has, for every table of the schema, an attribute of the right kind: a DataFrame for a generic table, a dictionary whose keys have as many entries as there are key fields for a table with primary key, a container of rows for other tables, a container or function for a generator table, where every row is a dictionary with exactly the data fields. If it returns True, the constructor makes an object of the same data from its tables (generator tables given as functions). Conversely, the constructor accepts exactly the arguments whose rows fit, refuses lost rows under the default policy, and good_tic_dat_object returns True for every object it makes.", "quantifier": "every schema with ordinary, generator and generic tables, every order of visiting the tables and every object with attributes of any kind", "why_tests_cant": "The check and the constructor are separate code with many branches by kind of table and shape of row; that they agree is a statement over all objects.", "anchors": ["ticdat/ticdatfactory.py::TicDatFactory.good_tic_dat_object", "ticdat/ticdatfactory.py::TicDatFactory.good_tic_dat_table", "ticdat/ticdatfactory.py::TicDatFactory._good_data_rows", "ticdat/ticdatfactory.py::TicDatFactory.__init__"]}
{"id": "C55", "title": "Foreign key links hold exactly the referring rows", "statement": "After enable_foreign_key_links, building a TicDat from good data attaches to every row of a parent table an attribute named after the child table (or the child table and the distinguishing fields, if several foreign keys connect the two tables). The attribute holds precisely the child rows that refer to this parent row, the same row objects as in the child table, under the part of their primary key that the foreign key does not map; for a one-to-one foreign key it is the single child row and is absent when there is none. No other links are made. Building is refused if some foreign key does not point to a full primary key. Assumes foreign keys that do not repeat a parent field, link names that do not clash, and no link named like a dictionary method.", "quantifier": "every schema, every set of foreign keys in every iteration order, every good data object", "why_tests_cant": "The links are built by position arithmetic over tuples of key and data values; whether exactly the right rows land under the right keys depends on all data and all mappings.", "anchors": ["ticdat/ticdatfactory.py::TicDatFactory.enable_foreign_key_links", "ticdat/ticdatfactory.py::TicDatFactory.__init__", "ticdat/ticdatfactory.py::TicDatFactory._trigger_has_been_used", "ticdat/utils.py::ForeignKey"]}
{"id": "C56", "title": "Pandas data type failures are reported exactly", "statement": "For every good PanDat object, PanDatFactory.find_data_type_failures does not raise; (table, field) is a key of the result iff some row of the table has a value in that field that breaks the declared data type (or, for a primary key field without a type, is neither a number nor a string); the boolean flags mark exactly those rows; with max_failures = n >= 1 the reported cells are the first n of the full report; and on the data frames of a TicDat object the flagged rows are exactly those that TicDatFactory.find_data_type_failures lists by primary key.", "quantifier": "all schemas, declared data types, good PanDat objects and limits", "why_tests_cant": "every combination of types and cell values in any number of rows; a counter shared by nested loops can be off only for particular distributions of failures", "anchors": ["ticdat/pandatfactory.py::PanDatFactory.find_data_type_failures", "ticdat/pandatfactory.py::PanDatFactory._true_data_types", "ticdat/utils.py::TypeDictionary.valid_data"]}
{"id": "C57", "title": "Pandas data type replacement repairs exactly the bad cells that have a replacement", "statement": "For every good PanDat object and replacement_values, PanDatFactory.replace_data_type_failures refuses (without any change) iff an entry is not for a field of the schema or a replacement that is needed is itself invalid; otherwise it replaces exactly the bad cells, of data fields and primary key fields, for whose field there is an entry in replacement_values or a default value, changes nothing else, leaves no bad cell in such a field, and is idempotent.", "quantifier": "all schemas, data types, default values, replacement values and good PanDat objects", "why_tests_cant": "the repair must be exact for every placement of bad cells and every mix of defaults and replacements", "anchors": ["ticdat/pandatfactory.py::PanDatFactory.replace_data_type_failures", "ticdat/pandatfactory.py::PanDatFactory.default_values"]}
{"id": "C58", "title": "PanDat readers return the file's rows with the schema's columns", "statement": "For every DataFrame a PanDat reader gets from a file, the table is refused exactly if some field is neither a column nor (with fill_missing_fields) has a default value; otherwise the table has exactly the fields of the schema as columns, in the schema's order, and exactly the rows of the file in order, each cell being the file's value or the field's default; other columns, the order of the columns and the order in which missing fields are filled in make no difference. Each table is read by itself: the object is refused exactly if one table is, and a table that was not found is empty. For json rows without field names, the rows are refused exactly if all are too short, otherwise fields get the values by position and None where a row is too short.", "quantifier": "all schemas, default values, DataFrames and lists of json rows", "why_tests_cant": "every set and order of columns, present or missing, with every set of defaults", "anchors": ["ticdat/pandatio.py::JsonPanFactory.create_pan_dat", "ticdat/pandatio.py::CsvPanFactory.create_pan_dat", "ticdat/pandatio.py::SqlPanFactory.create_pan_dat", "ticdat/pandatio.py::XlsPanFactory.create_pan_dat", "ticdat/pandatio.py::_clean_pandat_creator", "ticdat/pandatfactory.py::PanDatFactory.PanDat"]}
{"id": "C59", "title": "A PanDat table that is written to a file is read back as it was", "statement": "For every table of a PanDat object, if the file keeps the cells it is given and the values survive the infinity flag (no datetime field, no field of both text and number; finite numbers smaller than a numeric flag; valid values and no ambiguity with the flag None), writing does not raise, and reading the file gives the table back: all fields, rows in order, every value the same; for json rows without field names the same holds with null for NaN, if there are no datetimes and no text 'none' in fields of nullable text.", "quantifier": "all schemas, data types, infinity flags, default values and DataFrames, whatever other columns and column order the file has", "why_tests_cant": "every value in every column, with every flag and data type", "anchors": ["ticdat/pandatio.py::XlsPanFactory.write_file", "ticdat/pandatio.py::JsonPanFactory.write_file", "ticdat/pandatio.py::JsonPanFactory.create_pan_dat", "ticdat/pandatfactory.py::PanDatFactory._pre_write_adjustment", "ticdat/pandatfactory.py::PanDatFactory._general_post_read_adjustment"]}
{"id": "C60", "title": "Blank rows at the end of an Excel sheet make no difference", "statement": "For every Excel sheet that a PanDat is read from, appending any number of blank rows does not change the PanDat that is read: trailing blank rows are removed, and only these.", "quantifier": "all sheets, schemas, data types, infinity flags and numbers of blank rows", "why_tests_cant": "every number of blank rows and every mix of empty cells in the last rows", "anchors": ["ticdat/pandatio.py::XlsPanFactory.create_pan_dat", "ticdat/pandatfactory.py::remove_trailing_all_nan", "ticdat/pandatfactory.py::PanDatFactory._general_post_read_adjustment"]}
{"id": "C61", "title": "The command line of an engine", "statement": "standard_main reads the input, checks it, calls solve and writes the solution as documented. The format of every file is the one its ending implies. The input is read once; solve is called at most once, with exactly the data that was read; a solution is written exactly if solve returned one; with --errors a report is written and solve is called only if the report lists no error. Each happens at most once and in this order; a later option overrides an earlier one.", "quantifier": "every list of options, every state of the file system, every behaviour of the readers and of solve, both kinds of factories, every file name", "why_tests_cant": "Tests run a few command lines with a few files; file names, option lists and outcomes of solve are unbounded, and that nothing else is called or written is a statement about every run.", "anchors": ["ticdat/utils.py::standard_main", "ticdat/utils.py::_get_dat_object", "ticdat/utils.py::_get_write_function_and_kwargs"]}
{"id": "C63", "title": "The optimization model behaves alike over all engines", "statement": "Model.add_var accepts the same arguments whatever the engine, exactly those that make sense, and the values that the variable may take are those of its type between its bounds, whatever the engine. Over xpress get_solution_value gives the value that the last successful optimize found for this variable, after any history of adding variables and optimizing, and never that of another variable. Over cplex it gives the value that the last successful optimize found, and raises if there was none or the variable is newer.", "quantifier": "every lower and upper bound, type and engine; every history of add_var and optimize calls", "why_tests_cant": "Bounds and histories are unbounded; tests need three licensed engines and look at a few models.", "anchors": ["ticdat/model.py::Model.add_var", "ticdat/model.py::Model.optimize", "ticdat/model.py::Model.get_solution_value"]}
{"id": "C64", "title": "ampl_format substitutes labels and leaves single braces alone", "statement": "ampl_format replaces every label in doubled braces by the value of the argument of that name and leaves all other text, single braces included, as it is, even if braces touch a substitution. A missing argument raises.", "quantifier": "every text, split into literal texts without doubled braces and labels, that does not mention ticdat_ampl_format; all arguments", "why_tests_cant": "The result goes through six string replacements and str.format; whether they interfere depends on every possible neighbourhood of braces and markers.", "anchors": ["ticdat/utils.py::ampl_format"]}
{"id": "C62", "title": "The integrity report lists exactly the errors in the data", "statement": "The report that standard_main --errors writes, and by whose emptiness standard_main decides whether to refuse input, lists exactly, each once, the rows that repeat the primary key of an earlier row, the values that violate their data type (with the field), the rows without a parent (with the foreign key) and the row predicate failures (with predicate and message). Each row is identified by its primary key, or by all its fields if it has none, padded with None. The report is empty iff there is no error of any kind.", "quantifier": "every schema, data types, foreign keys, predicates and data whose DataFrames have the columns of the schema in the order of the schema (as all readers return)", "why_tests_cant": "Reports combine four searches over unbounded data and index rows positionally; tests look at one data set per kind of error.", "anchors": ["ticdat/utils.py::standard_main", "ticdat/utils.py::_integrity_solve", "ticdat/pandatfactory.py::PanDatFactory.find_duplicates"]}
{"id": "C65", "title": "Access files: every outcome of a write, and the round trip", "statement": "A data object written to an Access file and read from it is the same up to the order of the rows, for cells that the file keeps, and tables that are not in the schema stay as they are. Whatever the database refuses, each table of the schema is afterwards as it was before, or holds the first so many rows of the data object in place of rows that were allowed to be overwritten; if the write reports success each table holds all its rows. Without allow_overwrite no existing row is ever lost.", "quantifier": "all schemas, data objects, prior contents of the file, and all behaviours of the database in accepting and refusing single values", "why_tests_cant": "every point at which the database may refuse a value, in every table, is an outcome", "anchors": ["ticdat/mdb.py::MdbTicFactory.write_file", "ticdat/mdb.py::MdbTicFactory.create_tic_dat", "ticdat/mdb.py::MdbTicFactory._get_table_names"]}
{"id": "C66", "title": "PostgreSQL: every outcome of a write, success of consistent writes, and the round trip", "statement": "A write to PostgreSQL that succeeds leaves each table with its kept rows followed by the rows of the data object, without two rows with the same key; one that fails leaves each table as it was or, if its rows were to be deleted, empty. With acyclic foreign keys, a write between consistent states with values that the columns accept does not fail. What was written over any old contents reads back the same up to the order of the rows, with or without a column that marks active rows.", "quantifier": "all schemas with acyclic foreign keys, data objects, prior database states, choices of delete or append per table, and all behaviours of the columns on single values", "why_tests_cant": "which statements the constraints accept depends on the order of tables and rows and on the state at every point of the write", "anchors": ["ticdat/pgtd.py::PostgresTicFactory.write_data", "ticdat/pgtd.py::PostgresTicFactory.create_tic_dat", "ticdat/pgtd.py::_PostgresFactory._handle_prexisting_rows"]}
{"id": "C67", "title": "find_duplicates of a file or database agrees with what the reader makes of it", "statement": "For every csv directory, Excel file, SQLite or Access database, PostgreSQL schema and json file that can be read, find_duplicates succeeds and reports, for each table with primary key, exactly the keys that occur in two or more records with their counts; the table that create_tic_dat makes has, for each key, the data of the last record with that key, and has lost exactly as many records as the report says are surplus, provided the key cells are read as find_duplicates reads them.", "quantifier": "all schemas, all files and databases that can be read, all records, all duplicates policies and reader settings", "why_tests_cant": "A test fixes a file; which keys count as equal depends on the reading of every cell (infinity flag, text forms, name matching), and the agreement must hold for every combination.", "anchors": ["ticdat/csvtd.py::CsvTicFactory.find_duplicates", "ticdat/xls.py::XlsTicFactory.find_duplicates", "ticdat/sqlitetd.py::SQLiteTicFactory.find_duplicates", "ticdat/mdb.py::MdbTicFactory.find_duplicates", "ticdat/pgtd.py::PostgresTicFactory.find_duplicates", "ticdat/jsontd.py::JsonTicFactory.find_duplicates", "ticdat/utils.py::find_duplicates", "ticdat/utils.py::create_duplicate_focused_tdf", "ticdat/utils.py::find_duplicates_from_dict_ticdat"]}
{"id": "C68", "title": "Creating a PostgreSQL schema", "statement": "For every factory, set of forced field types and state of the database, write_schema succeeds exactly when: names are usable in PostgreSQL and forced types are for existing fields; none of the tables exists yet; every field has a column type (not both numbers and strings, nor neither); the default values fit their columns; and the foreign keys are acyclic (self references aside), refer to whole primary keys and have comparable columns. Then the database has its old tables unchanged plus exactly one table per table of the factory, with one column per field in order, the documented column types, null constraints exactly on non-nullable data fields, the primary key and the foreign keys; and check_tables_fields finds nothing missing. With include_ancillary_info=False foreign keys do not matter and the columns and types are the same outside the parameters table. Columns of typed fields hold every valid value of the field as write_data writes it, apart from NaN, nulls in keys, dates as text and infinity in integer or key columns in the null or no-flag mode.", "quantifier": "all factories (schemas, data types, defaults, infinity flags, parameters), all foreign key sets, all forced types, all existing databases, all valid cells", "why_tests_cant": "The conditions quantify over all foreign key graphs, data types and defaults; tests need a live PostgreSQL and create a handful of schemas.", "anchors": ["ticdat/pgtd.py::_PostgresFactory.write_schema", "ticdat/pgtd.py::_PostgresFactory._get_schema_sql", "ticdat/pgtd.py::_PostgresFactory.check_tables_fields", "ticdat/pgtd.py::_PostgresFactory._ordered_tables"]}
{"id": "C69", "title": "A PanDatFactory keeps its rules like a TicDatFactory, and schemas and clones move between the two", "statement": "Whatever calls are made on a PanDatFactory, leaving its data row predicates aside its state is one a TicDatFactory can reach, without generator tables and foreign key links. Once it has produced a data object, every call that sets foreign keys, default values, data types, data row predicates or adds a parameter raises and changes nothing. Its full schema rebuilds, with either class, a factory with the same full schema exactly when all parameters are named by strings and no default is a container. clone(clone_factory=...) from either class to either class gives a factory with the same rules and the data row predicates that can be kept, and raises exactly when enabled foreign key links or a predicate on a generic or generator table stand in the way. clone_add_a_column, clone_remove_a_column, clone_rename_a_column and clone_add_a_table do to a PanDatFactory what they do to a TicDatFactory. set_default_values raises for both classes or neither and then sets the same values.", "quantifier": "every schema, every sequence of factory calls, raising or not, every pair of classes, every column edit", "why_tests_cant": "the claim is about all call histories and all schemas, and about agreement of two separately written classes", "anchors": ["ticdat/pandatfactory.py::PanDatFactory.clone", "ticdat/pandatfactory.py::PanDatFactory.schema", "ticdat/pandatfactory.py::PanDatFactory.create_from_full_schema", "ticdat/pandatfactory.py::PanDatFactory.set_default_values", "ticdat/pandatfactory.py::PanDatFactory.add_data_row_predicate", "ticdat/pandatfactory.py::PanDatFactory.clone_rename_a_column", "ticdat/ticdatfactory.py::TicDatFactory.clone", "ticdat/utils.py::clone_a_column"]}
{"id": "C70", "title": "Exchanging data with AMPL keeps every value and invents none", "statement": "copy_from_ampl_variables makes a data object exactly when every entry fits the schema, and then each table has the indices of the copied values as its keys, each data field the value its variable gives (joined over several variables), its default value elsewhere, and nothing else; copy_to_ampl hands over exactly the tables with primary key that are not excluded, with the values of every field that is not left out, in row order, under the new names; it raises exactly for bad arguments or a schema with a generic table.  Likewise for PanDat.", "quantifier": "every schema, every collection of AMPL variables (any indices, values, filters), every data object, every set of renamings and excluded tables", "why_tests_cant": "the join over variables, filters and defaults and the combinations of renamings, omissions and exclusions are unbounded; tests need a licensed AMPL and cover one model", "anchors": ["ticdat/ticdatfactory.py::copy_from_ampl_variables", "ticdat/ticdatfactory.py::copy_to_ampl", "ticdat/pandatfactory.py::copy_from_ampl_variables", "ticdat/pandatfactory.py::copy_to_ampl"]}
{"id": "C71", "title": "PanDat objects in PostgreSQL: every outcome of a write, also one that is stopped, and the round trip", "statement": "PostgresPanFactory.write_data leaves tables outside the schema alone. If it raises no error, each table up to the one after which the progress callback said to stop (or every table) has its kept rows followed by all rows of the PanDat, marked as active; each later table has its kept rows only. If it raises, each table is as it was, or empty if its rows were to be deleted, or complete if pandas commits each table. With acyclic foreign keys, a write between consistent states with values the columns accept raises nothing. A PanDat written over any old contents and read back has the same rows, up to their order and the kind of null, in columns in order of the schema, including infinities under an infinity flag, datetimes, fields of text and numbers, and declared parameters.", "quantifier": "every schema, PanDat (extra columns, any column order, any index), database state, choice of delete or append, every progress callback, every behaviour of the columns on single values, every order in which the database returns rows", "why_tests_cant": "the outcome depends on which statement fails, on where the callback stops and on the whole prior state of the database", "anchors": ["ticdat/pgtd.py::PostgresPanFactory.write_data", "ticdat/pgtd.py::PostgresPanFactory.create_pan_dat", "ticdat/pandatfactory.py::PanDatFactory._pre_write_adjustment", "ticdat/pandatfactory.py::PanDatFactory._general_post_read_adjustment"]}
{"id": "C72", "title": "PanDat objects in csv directories, Excel, SQLite and json files: whole-object round trips beside other data", "statement": "A PanDat (any tables, with infinity flags, datetimes, mixed fields and declared parameters) that is written to a directory of csv files, an Excel file, a SQLite file or a json file (both formats) and read back has the same tables and rows in order, up to the kind of null, with or without case_space_table_names. Other files of the directory and other tables of the database stay as they are. if_exists='append' keeps the old rows and adds the new ones by column name. Tables that are not there are read as empty tables, without an error. A file or table that spells a table name differently from the name that is written makes the write raise (SQLite, names equal up to case) or the result unreadable (csv, SQLite). A json file that mixes the two formats is refused.", "quantifier": "every schema, PanDat, directory or database that may have other contents, every if_exists, every behaviour of pandas that keeps columns by name and cells up to the kind of null, or datetimes as text", "why_tests_cant": "the outcome depends on all names that are already in the directory or database, and on all names of the schema together", "anchors": ["ticdat/pandatio.py::JsonPanFactory", "ticdat/pandatio.py::CsvPanFactory", "ticdat/pandatio.py::SqlPanFactory", "ticdat/pandatio.py::XlsPanFactory", "ticdat/pandatfactory.py::PanDatFactory._pre_write_adjustment"]}
{"id": "C73", "title": "as_dict gives a dictionary from which the object can be rebuilt", "statement": "For a schema without generator tables, as_dict returns a dictionary with one entry per table (a dictionary of dictionaries for tables with primary key, a list of dictionaries for tables without, to_dict for generic tables), and passing it unpacked to the TicDat constructor gives an object with the same tables, keys, rows and cells under every setting for duplicates. With generator tables it raises.", "quantifier": "all schemas, all data objects, all duplicate policies", "why_tests_cant": "Round trips through pickled dictionaries must work for every schema and object; a test covers a few. Generic tables that are wider than long only fail for particular shapes.", "anchors": ["ticdat/ticdatfactory.py::TicDatFactory.as_dict", "ticdat/ticdatfactory.py::TicDatFactory.TicDat.__init__"]}
{"id": "C74", "title": "_same_data compares two data objects table by table", "statement": "Comparing two objects of a schema returns True exactly if all tables agree: tables with primary key have the same keys and agreeing cells, tables without have as many rows and a match for every row of the first. Cells agree if they are equal, close within epsilon, or both missing when this is asked for. Where rows are distinct and there is no tolerance this means that rows can be paired off. An object is the same as itself if NaNs count as the same.", "quantifier": "all pairs of objects of a schema, all tolerances and options", "why_tests_cant": "Every test of a round trip relies on this comparison, so tests cannot show that it is right; duplicates, NaN and infinities need all combinations.", "anchors": ["ticdat/ticdatfactory.py::TicDatFactory._same_data", "ticdat/utils.py::nearly_same", "ticdat/utils.py::per_error"]}
{"id": "C75", "title": "Generator tables are read from their files on demand, and are what an in-memory reading gives", "statement": "For csv directories, SQLite databases and Excel files: if the data can be read with all tables in memory then it can be read with any tables without primary key declared as generator tables, the other tables are the same, and iterating over a generator table gives exactly the rows that would be in memory. Iterating later gives the rows the file has at that time (csv: the file found when the object was made; Excel: whatever sheet matches then). Writing such an object elsewhere writes what the in-memory object would write. Writing it over its own source keeps the rows for SQLite and .xls; for csv directories the rows of the generator tables are lost, and for .xlsx the file is destroyed.", "quantifier": "Every schema, choice of generator tables, contents of directory, database or workbook, cell reading settings and later change of the files", "why_tests_cant": "The rows are read at a later time than the object is made, so the property ranges over all histories of file contents between the two; tests iterate right after reading.", "anchors": ["ticdat/csvtd.py::CsvTicFactory._create_table", "ticdat/csvtd.py::CsvTicFactory.write_directory", "ticdat/sqlitetd.py::SQLiteTicFactory._create_gen_obj", "ticdat/xls.py::XlsTicFactory._create_generator_obj", "ticdat/xls.py::XlsTicFactory._xlsx_write", "ticdat/ticdatfactory.py::TicDatFactory.set_generator_tables"]}
{"id": "C76", "title": "Generic tables in csv directories and SQLite databases", "statement": "For a schema with generic tables (tables whose columns are not declared), writing a data object into a csv directory writes one file for every declared table and for every generic table that has rows, and touches no other file. Reading the directory back gives the same keys, rows, columns and cells in the same order; generic tables lose their index, and empty ones lose their columns. The rows of a generic table written to SQLite and read back give the same DataFrame without its index. Objects whose generic tables have a column called name, columns that agree up to case or labels that are no text, and objects of schemas that also have generator tables, raise on writing.", "quantifier": "all schemas, all objects of the schema, all cell contents within the stated kinds, all directories with other files, all listing orders", "why_tests_cant": "Tests write a few frames into fresh directories; they meet neither old files of tables that are now empty, nor columns called name, nor text that reads as a number in other tables of the schema.", "anchors": ["ticdat/utils.py::create_generic_free", "ticdat/csvtd.py::CsvTicFactory.write_directory", "ticdat/csvtd.py::CsvTicFactory.create_tic_dat", "ticdat/sqlitetd.py::SQLiteTicFactory.write_db_data"]}
{"id": "C77", "title": "SQLite databases with a schema of their own are read by name and written all or nothing", "statement": "create_tic_dat reads from any SQLite database that has the tables of the schema: what is read depends only on the cells under the names of the fields, not on the order of columns or tables, on further columns or tables, or on the case of names. A table that is not there is read as an empty table (from a .sql file it raises), a table without one of the fields raises even if it has no rows. write_db_data into such a database empties the tables of the schema (or insists that they are empty) and fills them; what is then read is the same data up to the order of rows, further columns get their default values and other tables stay as they are. If it raises - a table or field is missing, there are rows and overwriting is not allowed, a row is refused - the database is as it was before.", "quantifier": "every schema, data object and database: columns in any order, further columns with any defaults, any primary key that has the key fields, any further tables, any case of names", "why_tests_cant": "tests write into databases that ticdat itself has created; layouts, spellings and failure points of other databases are unbounded", "anchors": ["ticdat/sqlitetd.py::SQLiteTicFactory.create_tic_dat", "ticdat/sqlitetd.py::SQLiteTicFactory.create_tic_dat_from_sql", "ticdat/sqlitetd.py::SQLiteTicFactory.write_db_data", "ticdat/sqlitetd.py::SQLiteTicFactory._check_tables_fields", "ticdat/sqlitetd.py::SQLiteTicFactory._get_data"]}
{"id": "C78", "title": "Copying and comparing PanDat objects", "statement": "copy_pan_dat of a good object succeeds and gives a good object with the same rows in the same order and the same value in every column of every row, fields first; the copy counts as the same data. copy_to_tic_dat raises exactly if a field is called name (other than a primary key of its own) or, under the default policy, two rows share a primary key, and otherwise has the rows of the DataFrames and the DataFrames of generic tables. Comparing two objects says True exactly if every table has as many rows in both and each row of the first has a row of the second with the same key and agreeing values, where order of rows and columns, index and extra columns do not matter and generic tables must have the same columns; it raises if a table with as many rows in both cannot be turned into a TicDat table, for example an empty generic table.", "quantifier": "every schema with ordinary and generic tables, every pair of good objects, every tolerance, every policy for duplicates", "why_tests_cant": "Every round trip test of PanDat rests on this comparison; that it depends only on rows as sets of named values is a statement about all objects.", "anchors": ["ticdat/pandatfactory.py::PanDatFactory.copy_pan_dat", "ticdat/pandatfactory.py::PanDatFactory.copy_to_tic_dat", "ticdat/pandatfactory.py::PanDatFactory._copy_to_tic_dat", "ticdat/pandatfactory.py::PanDatFactory._same_data", "ticdat/pandatfactory.py::PanDatFactory.good_pan_dat_object"]}
{"id": "C79", "title": "Renaming fields that are reserved words keeps everything attached to them and can be undone", "statement": "change_fields_with_reserved_keywords raises exactly if the factory has a generic table or a field beginning with an underscore. Otherwise the result has the same tables with the fields in the same places, fields whose lower case is reserved having an underscore in front, and each field has the default value and the data type it had. With undo=True one leading underscore is removed from every field; it raises exactly if there is a generic table or two fields of a table then coincide up to case. Undoing after renaming always succeeds and gives back tables, fields, default values and data types. find_case_space_duplicates raises exactly if there is a generic table and otherwise lists exactly the tables with two fields that coincide in lower case with underscores for blanks.", "quantifier": "all factories reached by public calls, all lists of reserved words", "why_tests_cant": "tests rename a few fields of example schemas; that no two names collide and no default value or data type goes astray for every schema is not settled by them", "anchors": ["ticdat/utils.py::change_fields_with_reserved_keywords", "ticdat/utils.py::find_case_space_duplicates"]}
{"id": "C80", "title": "JSON files as a whole", "statement": "TicDatFactory.json.write_file changes nothing in the file system except the file at its path, and without allow_overwrite nothing that exists; without a path it returns the text. It writes every object of the factory unless a cell is of a kind that json cannot encode. What it wrote, read from the path or from the returned text, is the same object. With to_pandas it writes the same text, provided that no cell is NaN. create_tic_dat recognises exactly the files whose values are all objects with the keys columns and data (unless all tables have just these fields), and reads from a file of PanDatFactory.json.write_file_pd the rows of the PanDat. It raises for a text that is not a json object, and (without from_pandas) for one with a value that is neither a list nor an object.", "quantifier": "All factories without generic and generator tables, all objects, paths, file systems and flags; all json libraries that load what they dump.", "why_tests_cant": "The guard, the layouts and the detection of the layout combine with every schema, object and state of the file system; tests try a handful.", "anchors": ["ticdat/jsontd.py::JsonTicFactory.create_tic_dat", "ticdat/jsontd.py::JsonTicFactory.write_file", "ticdat/pandatio.py::JsonPanFactory.create_pan_dat", "ticdat/ticdatfactory.py::TicDatFactory.copy_to_pandas"]}
{"id": "C81", "title": "Column types in csv files of PanDat objects", "statement": "Reading a csv directory, pandas decides the type of each column from its texts, except that the factory asks for text in exactly the fields whose declared type allows strings but neither numbers nor datetimes, and in the key and value of the parameters table when parameters are declared. Such a column comes back text by text, even when every text looks like a number, except that nulls and texts pandas takes for missing values become NaN. A column that is not declared as text and whose texts all look like numbers comes back as numbers. An object whose columns are numbers, Booleans, datetimes in datetime fields, text in declared text fields, or text with at least one entry that looks like no number or Boolean is the same after write_directory and create_pan_dat.", "quantifier": "all schemas, declared types, parameters, infinity flags, objects, and all rules by which pandas recognises missing values, numbers and Booleans", "why_tests_cant": "The type of a column depends on all its cells together and on the declared types; tests try a handful of columns.", "anchors": ["ticdat/pandatio.py::CsvPanFactory.create_pan_dat", "ticdat/pandatio.py::CsvPanFactory.write_directory", "ticdat/pandatfactory.py::PanDatFactory._dtypes_for_pandas_read"]}
{"id": "C82", "title": "obfusimplify of a PanDat renames entities consistently", "statement": "Whenever PanDatFactory.obfusimplify returns, the returned PanDat has the tables of the schema, each with exactly its fields as columns and the rows of the original in their order; the cell of a field that is the primary key of an entity table or refers to one is replaced by the new name of that entity, every other cell is kept (None may become NaN), different entities have different new names, and renamings leads from each new name back to its table and key. It raises when a table has duplicate keys, when a row fails a declared foreign key, and when a data field is called \"name\"; without these it returns if the foreign keys say clearly which entity a field stands for, the prefixes are valid and there are at most 25 entity tables.", "quantifier": "every schema without generic tables, set of foreign keys, PanDat object, prefix dictionary, list of skipped tables, iteration order of sets and sort order of keys", "why_tests_cant": "Tests look at a few literal objects; the consistency of the renaming has to hold for every schema, data and order, across three representations (DataFrames, dictionaries, DataFrames).", "anchors": ["ticdat/pandatfactory.py::PanDatFactory.obfusimplify", "ticdat/ticdatfactory.py::TicDatFactory.obfusimplify", "ticdat/ticdatfactory.py::TicDatFactory.copy_to_pandas", "ticdat/pandatfactory.py::PanDatFactory.copy_to_tic_dat"]}
{"id": "C83", "title": "Deep copies and accessors are disconnected from their source", "statement": "deep_copy returns an object with the contents of its argument that shares no changeable container with it, and fails exactly when something in the argument is of a kind it does not know; deep_freeze returns an object with the same contents (tuples for lists, frozensets for sets, read-only dictionaries) with nothing changeable in it and nothing shared. What default_values, generator_tables, parameters, tooltips, data_types and get_row_predicates return has the contents of the factory's own containers and no change to it changes the factory.", "quantifier": "all nested objects of any depth and all factories whose entries are of the kinds the setters make", "why_tests_cant": "nesting depth is unbounded and aliasing only shows when some later change is made to some shared container", "anchors": ["ticdat/utils.py::deep_freeze", "ticdat/utils.py::deep_copy", "ticdat/ticdatfactory.py::TicDatFactory.default_values", "ticdat/ticdatfactory.py::TicDatFactory.generator_tables", "ticdat/ticdatfactory.py::TicDatFactory.parameters", "ticdat/ticdatfactory.py::TicDatFactory.data_types", "ticdat/ticdatfactory.py::TicDatFactory.tooltips", "ticdat/ticdatfactory.py::TicDatFactory.get_row_predicates", "ticdat/ticdatfactory.py::TicDatFactory.primary_key_fields"]}
{"id": "C84", "title": "Progress reports accept correct bounds and never disturb the solver", "statement": "mip_progress raises exactly if its arguments are no string and two numbers, or the lower bound is inf or exceeds the upper bound by more than a 100000th of its size; it prints one line with theme and bounds unless quiet, and returns True. The callbacks for gurobi, xpress and cplex pass bound and objective in the order of the sense and stop the solver exactly if mip_progress returns a false value, so a solver that reports correct bounds is never stopped and no callback raises.", "quantifier": "all themes, bounds (also infinite and NaN), senses and progress functions", "why_tests_cant": "bounds are arbitrary numbers; the callbacks run inside licensed solvers", "anchors": ["ticdat/utils.py::Progress.mip_progress", "ticdat/utils.py::Progress.numerical_progress", "ticdat/utils.py::Progress.gurobi_call_back_factory", "ticdat/utils.py::Progress.add_xpress_callback", "ticdat/utils.py::Progress.add_cplex_listener"]}
{"id": "C85", "title": "Logged tables show the first rows faithfully", "statement": "log_table raises exactly if there is no header or two rows differ in length. Otherwise it writes a title, a note exactly if rows are left out, the header and the first max_write rows in their order, one line each, and in a line whose cells fit in the columns every column shows its cell. A LogFile without path writes nothing.", "quantifier": "all tables, formatters and non-negative max_write", "why_tests_cant": "tables are unbounded in both directions", "anchors": ["ticdat/utils.py::LogFile.log_table", "ticdat/utils.py::LogFile.write", "ticdat/utils.py::LogFile.__init__"]}
{"id": "C86", "title": "Readers follow the present settings of their factory", "statement": "Whatever has been called and read before, reading csv or Excel files through a factory (create_tic_dat, find_duplicates) gives what a new factory with the same tables, data types, default values, parameters and flags would give; likewise the infinity that a missing number stands for is always the one the present data types and infinity flag give", "quantifier": "All factories, all histories of factory calls (raising or not), file reads (successful or not) and infinity look-ups, all files", "why_tests_cant": "The readers and the factory remember settings between calls; whether something stale is used depends on the order of the calls, and there are infinitely many orders", "anchors": ["ticdat/csvtd.py::CsvTicFactory._get_dv_dt", "ticdat/xls.py::XlsTicFactory._get_dv_dt", "ticdat/csvtd.py::CsvTicFactory.find_duplicates", "ticdat/ticdatfactory.py::TicDatFactory._none_as_infinity_bias", "ticdat/ticdatfactory.py::TicDatFactory.set_data_type", "ticdat/pandatfactory.py::PanDatFactory._none_as_infinity_bias"]}
{"id": "C87", "title": "Configuration calls accept exactly what they should and change exactly what they name", "statement": "Every call that configures a factory (set_data_type, clear_data_type, set_default_value(s), add_foreign_key, clear_foreign_keys, add_implied_foreign_keys, add_parameter, remove_parameter, set_generator_tables, set_tooltip, add_data_row_predicate, set_infinity_io_flag, set_xlsx_trailing_empty_rows, set_duplicates_ticdat_init, ...) raises exactly when its arguments are not acceptable in the present state; when it does not raise, it changes the entry it names and nothing else; when it raises, nothing changes, except that set_default_values may already have set some of the given values", "quantifier": "All factories of either class in all states that calls lead to, all calls with all arguments", "why_tests_cant": "Whether a call is accepted depends on the whole state of the factory, and that nothing else changes is a statement about every other setting; tests look at a few settings after a few calls", "anchors": ["ticdat/ticdatfactory.py::TicDatFactory.set_data_type", "ticdat/ticdatfactory.py::TicDatFactory.set_default_values", "ticdat/ticdatfactory.py::TicDatFactory.add_foreign_key", "ticdat/ticdatfactory.py::TicDatFactory.add_parameter", "ticdat/ticdatfactory.py::TicDatFactory.add_data_row_predicate", "ticdat/utils.py::set_tooltip", "ticdat/utils.py::acceptable_default", "ticdat/utils.py::TypeDictionary.safe_creator", "ticdat/pandatfactory.py::PanDatFactory.set_default_values", "ticdat/pandatfactory.py::PanDatFactory.add_data_row_predicate"]}
{"id": "C88", "title": "What is on the disk after a write, also one that raises", "statement": "A call of csv.write_directory, xls.write_file, sql.write_sql_file or sql.write_db_data changes nothing on the disk but its own file (for csv the directory and the files of the tables). A call that is refused (unknown dialect, object that is not good for the factory, wrong extension, sheet names that clash, a directory in the way, existing files without allow_overwrite) leaves the disk exactly as it was; write_sql_file is the exception for objects that are not good. A call that returns leaves complete files. A call that raises later leaves: for csv the files of the tables before the failure complete, one file broken off at the first row that cannot be written, and the others as before; for .xls and an existing SQLite database everything as before; for .xlsx possibly no file where there was one; for .sql an empty file; for a new SQLite database possibly tables without rows. Without allow_overwrite no file that was there is changed, whatever happens (csv with plain names, Excel, .sql).", "quantifier": "every schema, object, configuration, state of the disk and set of arguments, and every point at which the write can fail", "why_tests_cant": "A test looks at a few failures on a few disks; that nothing else is touched, and what is left by a write that fails at any point, is a statement about all of them.", "anchors": ["ticdat/csvtd.py::CsvTicFactory.write_directory", "ticdat/xls.py::XlsTicFactory.write_file", "ticdat/sqlitetd.py::SQLiteTicFactory.write_db_data", "ticdat/sqlitetd.py::SQLiteTicFactory.write_sql_file"]}
{"id": "C89", "title": "Access databases with a schema of their own", "statement": "For an Access database that was not made by ticdat: what create_tic_dat reads depends only on the cells that its tables have under the names of the schema's fields, up to case, and not on the order of columns or tables, on other columns and tables; a missing table is read as empty; a found table that lacks a field, and two tables that could both be a table of the schema, make reading and writing raise with nothing changed; a generator table gives the rows that would be read into memory. write_file into such a database raises exactly when it does for a database that has just the tables and columns of the schema with the same contents, and leaves the same contents in them; what is written is read back; every table, column and primary key stays, tables that are not in the schema keep their rows, and added rows have default values in the columns that are no fields, whether the write raises or not.", "quantifier": "all schemas, data objects, databases with arbitrary tables, columns, spellings and contents, infinity flags, column behaviours (what a column stores or refuses)", "why_tests_cant": "layouts of foreign databases are unbounded and a failing write can stop at any row; tests use databases made by write_schema", "anchors": ["ticdat/mdb.py::MdbTicFactory.create_tic_dat", "ticdat/mdb.py::MdbTicFactory._check_tables_fields", "ticdat/mdb.py::MdbTicFactory._get_table_names", "ticdat/mdb.py::MdbTicFactory._create_gen_obj", "ticdat/mdb.py::MdbTicFactory.write_file"]}
{"id": "C90", "title": "Access schemas are created as asked, and can then be written to", "statement": "write_schema of the Access writer succeeds exactly if there are no generic tables, a driver is installed, the named arguments map fields of tables to text, double or int, the path is that of an Access file (and a new one can be made if there is none), and for each table of the schema no table of that name exists yet, it has fields, no two of them the same up to case, and Access has no other objection. Then every table that was there is as it was and there is a new empty table for each of the schema, with the fields as columns in order, the primary key of the schema, and the types asked for; without, parameters tables are all text and otherwise keys are text and data fields are double. write_file then succeeds and reading gives the data back, also if write_file made the file itself. A call that raises either changed nothing or leaves the tables before the one that Access refused; from then on both functions raise for that path.", "quantifier": "every schema, every mapping of types, every host, every database that exists already or not, every data object whose cells the columns store", "why_tests_cant": "Tests use a handful of schemas on new files on a computer with drivers; refused calls, files with other tables and failures halfway are never tried.", "anchors": ["ticdat/mdb.py::MdbTicFactory.write_schema", "ticdat/mdb.py::MdbTicFactory.write_file", "ticdat/mdb.py::MdbTicFactory._check_tables_fields"]}
{"id": "C91", "title": "set_ampl_data passes each table to AMPL once, with the set name given for it", "statement": "set_ampl_data raises before any call if the object has a table that is not in the schema, or if a set name is given for something the object does not have or is not a string. Otherwise there is one setData call for each table of the object, with its frame and the set name given for it if there is one, in the order of a Python set; they are made until AMPL refuses one, and set_ampl_data raises just if AMPL refuses one. If the order of calls does not matter to AMPL then neither outcome nor data depend on the order Python picks; if it does matter (a set has to be there before what is indexed over it), the same call can succeed in one run and raise in another.", "quantifier": "every object, every mapping of set names, every iteration order of the set of tables, every AMPL", "why_tests_cant": "The order of a set of strings changes from one Python process to the next, so a test sees one of many; AMPL is not installed where tests run.", "anchors": ["ticdat/ticdatfactory.py::TicDatFactory.set_ampl_data", "ticdat/pandatfactory.py::PanDatFactory.set_ampl_data"]}
{"id": "C92", "title": "The forms of foreign key reports", "statement": "find_foreign_key_failures of both factories returns exactly if verbosity is 'High' or 'Low' and max_failures is positive (on good objects); both verbosities report the same failures: each foreign key with failures appears under exactly one name, nothing is merged although the short names carry no cardinality; for PanDat objects as_table gives the failing rows in table order and otherwise one flag per row; with max_failures the report has exactly min(max_failures, number of failures) rows.", "quantifier": "every schema, list of foreign keys, data object, verbosity text and limit", "why_tests_cant": "a test sees a few foreign keys; that dropping the cardinality never makes two names equal holds for all of them", "anchors": ["ticdat/ticdatfactory.py::TicDatFactory.find_foreign_key_failures", "ticdat/pandatfactory.py::PanDatFactory.find_foreign_key_failures", "ticdat/utils.py::ForeignKey"]}
{"id": "C93", "title": "What PanDat writers leave on the disk", "statement": "The writers of a PanDatFactory (csv directory, Excel file, SQLite file, json file in both formats) touch nothing unless every table of the schema is a DataFrame with all its fields and could be adjusted for writing: a refused object leaves the disk, including the directory to be made, exactly as it was. After that they write without asking. Only the files (tables) of the schema change, files of other names stay. If a csv write raises, the files of the tables before are complete, the one at which it raised is as pandas left it, and those after it are as before. If a SQLite write raises, the tables before it are left behind in the database and those from it on are as before. A json or Excel file is what json.dump or ExcelWriter has written, also when they raise, so that the file that was there before is lost.", "quantifier": "all schemas with different table names, objects, paths, states of the disk or database, and all behaviours of pandas and json", "why_tests_cant": "A test sees a few objects on an empty disk and rarely a write that raises half way; the claim is about every disk and every point of failure.", "anchors": ["ticdat/pandatio.py::CsvPanFactory.write_directory", "ticdat/pandatio.py::JsonPanFactory.write_file", "ticdat/pandatio.py::JsonPanFactory.write_file_pd", "ticdat/pandatio.py::XlsPanFactory.write_file", "ticdat/pandatio.py::SqlPanFactory.write_file"]}
{"id": "C94", "title": "Slicing pandas columns with .sloc", "statement": "For a column with a multi-level index, series.sloc[key] gives the answer of series.loc[key] wherever that answers. With a key of labels and at least one full slice (:) it never raises: the answer is exactly the rows whose labels agree with the key at every label, in their order, and an empty series if there are none. It agrees with a Slicer of the index entries on every such key, whatever the Slicer was asked before. Without a full slice it raises exactly when .loc does. After copy_to_pandas a column has .sloc exactly if its table has a primary key of several fields and at least one row and the index was kept, and then its series holds the value of the field for the key of each row.", "quantifier": "all series, keys, tables, behaviours of .loc on keys without a match, and histories of slicer calls", "why_tests_cant": "series, keys and histories are unbounded and whether .loc raises without a match depends on the version of pandas", "anchors": ["ticdat/utils.py:Sloc.__getitem__", "ticdat/utils.py:Sloc.add_sloc", "ticdat/utils.py:Slicer.slice", "ticdat/ticdatfactory.py:TicDatFactory.copy_to_pandas"]}
