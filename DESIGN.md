# Formal model of ticdat in Lean 4 — design

Source: `/repo` (ticdat at the pinned commit), read as text only.  Nothing in `/repo` was built or run.
All Lean modules are under `lean/Verif/`:

* `Verif/Model/*`  – executable, total definitions that mirror the Python functions branch by branch.
  Every definition cites the file and lines it models; exceptions are values (`Except`/`Option`).
* `Verif/Spec/*`   – small specifications, written without the model's helpers.
* `Verif/Lemmas/*` – helper lemmas.
* `Verif/Props/*`  – one file per group of properties: the property theorems, non-vacuity examples and,
  where the code violates the property, a concrete counterexample theorem.

## Trusted base

* Lean 4.33.0's kernel and the three standard axioms `propext`, `Classical.choice`, `Quot.sound` (per theorem: last
  section).  No axioms of our own, no `sorry`/`admit`, no `native_decide`/`bv_decide`.
* The reading of the Python code: the theorems are about the model; the tie to the code is the line citations.
* Python semantics that the model takes as given: `dict` keeps insertion order and has one entry per key up to `==`;
  `set` iteration order is arbitrary (modelled as an arbitrary list; theorems hold for every order);
  no concurrent mutation; `assert` statements are on.
* Library behaviour that is part of the model or enters as a hypothesis, each stated where it is used:
  * text of cells and `float(text)`, date parsing: abstract `TextEnv`, laws `TextOK` (shown satisfiable by `unaryText_ok`);
  * `str.lower`/`str.upper`: abstract `CaseEnv`, character-wise; laws `CaseLaws`, `SimpleCase`, `CaseRoundTrip`
    (instances: `asciiLaws`, `asciiSimple`, `asciiRoundTrip`);
  * `json.dumps`/`loads` carries null, Booleans, numbers, strings, lists and objects with distinct keys; the `csv`
    module carries lists of texts;
  * SQLite: column affinity, NULL, Booleans, the reading of quoted literals, primary keys with NULL (`Model/SqliteIO`,
    `Model/SqlText`);
  * xlwt/xlrd, xlsxwriter/openpyxl: what a stored cell is read as, `max_row`/`min_row`/`max_column`, accepted sheet names
    (`Model/ExcelIO`).  Limits on rows and text lengths are not modelled;
  * pandas: only the few operations used by the modelled functions (boolean masks, `duplicated`, merges), on the level of
    lists of rows.

### What is modelled

| Model file | code |
|---|---|
| `Cell`, `DataType`, `Dict` | cells, `TypeDictionary` (utils.py), `find_/replace_data_type_failures` |
| `Schema`, `FindFK`, `PanFK`, `Implied`, `Graph` | foreign keys: find, remove, implied keys, cycles, table order of pgtd/sqlitetd |
| `RowPred`, `Group` | `find_data_row_failures` of both factories, `add_data_row_predicate` |
| `Factory`, `Clone` | `TicDatFactory` as a state machine: all setters, `schema`, `create_from_full_schema`, `clone*` |
| `Rows` | `td_row_factory`, `TicDatDict`, freezing, as operations on a heap |
| `Init`, `Copy` | `TicDat.__init__`, `good_tic_dat_object`, `copy_tic_dat` |
| `Good` | `good_tic_dat_object`, `good_tic_dat_table`, the constructor with generic and generator tables |
| `Links` | foreign key links: `_try_make_foreign_links`, link names, `TicDatDict.__getitem__` of a link table, which tables `_freeze` reaches |
| `PanTypes` | `PanDatFactory.find_data_type_failures`, `_true_data_types`, `replace_data_type_failures`; column dtypes and the conversions pandas makes when a column is assigned are not modelled |
| `Frame` | DataFrames: `TicDat.__init__`, `PanDat.__init__`, `copy_to_pandas`, `copy_pan_dat`, `copy_to_tic_dat` |
| `CellIO`, `PanIO` | `_general_read_cell`, `_infinity_flag_write_cell`, parameters adjustments, PanDat flags |
| `Names` | file, sheet, key and table name matching and writing, overwrite guards |
| `TableIO` | json and csv writers and readers |
| `SqlText`, `SqliteIO` | SQLite files and `.sql` files |
| `ExcelIO` | `.xls` and `.xlsx` files |
| `Obfus` | `obfusimplify` |
| `Utils` | duplicates, underscore variants, trailing rows, `nearly_same`, `Slicer` |
| `PanRead` | the readers of `pandatio.py` from the DataFrame that pandas reads to the `PanDat`, the writers from the `PanDat` to what is handed to pandas; list-of-lists json; not pandas-flavoured json, not generic tables |
| `Main` | `standard_main`, `_get_dat_object`, `_get_write_function_and_kwargs`; not the Foresta options, not `getopt` itself |
| `Mip` | `Model.add_var`, `optimize`, `get_solution_value` for the calls that the engines get; not the engines, not parameters and objectives |
| `Ampl` | `ampl_format`; `str.format` for fields that are plain names |
| `Report` | `_integrity_solve` (utils.py:340-422), `PanDatFactory.find_duplicates`; generic tables and the NaN conversion of `copy_to_pandas` are not modelled |
| `Model/Mdb.lean` | Access files (mdb.py): names of tables, `write_file`, `create_tic_dat` |
| `Model/Pg.lean` | PostgreSQL (pgtd.py): `write_data`, `create_tic_dat`, foreign key constraints |
| `Spec/DbIO.lean` | values handed to a database, values it keeps, rows as stored |
| `Props/DbIO.lean`, `Props/Mdb.lean`, `Props/Pg.lean` | C65, C66 |
| `Model/FindDups.lean` | `find_duplicates` of the csv, Excel, SQLite, Access, PostgreSQL and json readers |
| `Spec/FindDups.lean`, `Lemmas/Dups.lean` | exact reports, last records, surplus; counting lemmas |
| `Props/FindDups.lean`, `Props/FindDupsFiles.lean`, `Props/FindDupsDb.lean`, `Props/FindDupsJson.lean`, `Props/FindDupsEx.lean` | C67: agreement of report and reader, examples and witnesses of disagreement |
| `Model/PgSchema.lean`, `Spec/PgSchema.lean`, `Lemmas/PgSchema.lean`, `Props/PgSchema.lean`, `Props/PgSchemaEx.lean` | PostgreSQL schema creation (C68) |
| `Model/PanFactory.lean`, `Spec/PanFactory.lean`, `Lemmas/PanFactory.lean`, `Lemmas/PanClone.lean`, `Props/PanFactory.lean`, `Props/PanEdit.lean`, `Props/PanFactoryEx.lean` | C69: states and clones of a `PanDatFactory`, clones between the classes |
| `Model/AmplData.lean` | copy_from_ampl_variables, copy_to_ampl of TicDatFactory and PanDatFactory |
| `Model/PgPan` | `PostgresPanFactory.write_data`/`create_pan_dat`; context managers that do nothing |
| `Props/PanCells` | reading and writing a column of a `PanDat` is reading and writing its cells; datetimes and mixed fields |
| `PanFiles` | whole PanDat objects in csv directories, Excel, SQLite and json files |
| `Model/AsDict` | `as_dict` |
| `Model/SameData` | `_same_data`, `nearly_same` with NaN |
| `GenFiles` | generator tables read from csv, SQLite and Excel files on demand, and the writers that ask for their rows |
| `Model/GenericFiles.lean`, `Spec/GenericFiles.lean`, `Props/GenericFiles.lean` | generic tables in csv directories and SQLite databases |
| `SqlFile` | SQLite databases with a schema of their own (sqlitetd.py:70-95, 134-186, 205-239, 282-356) |
| `PanSame` | copying and comparing PanDat objects |
| `Model/Reserved.lean` | change_fields_with_reserved_keywords, find_case_space_duplicates |
| `Model/JsonFile`, `Spec/JsonFile`, `Props/JsonFile` | json files as a whole: guard, layouts, `to_pandas`, `from_pandas`, detection of the pandas layout |
| `PanCsv` | column types of csv files (pandatfactory.py:425-440, pandatio.py:308-311, 374) |
| `PanObfus` | `obfusimplify` of a `PanDatFactory`, table by table through the `TicDat` and back (C82) |
| `Objects` | `deep_copy`, `deep_freeze` (utils.py:1014-1048), the accessors `primary_key_fields`, `data_fields`, `default_values`, `generator_tables`, `parameters`, `tooltips`, `data_types`, `get_row_predicates`. Objects are trees (no cycles: the code does not terminate on them). Dictionary keys that become equal when copied are not merged |
| `Logs` | `Progress` (utils.py:1210-1303), `LogFile.log_table` (utils.py:1158-1209). Exact arithmetic instead of floats; number formatting is a parameter; solvers are what they report |
| `MipCalls` | `add_constraint`, `add_indicator_constraint`, `set_objective`, `set_parameters`, `get_mip_results` (model.py:108-240). Expressions are opaque |
| `ReadCache` | what readers remember between calls (csvtd.py:84-110, xls.py:317-345, ticdatfactory.py:1069-1083), and the readers with it |
| `WriteDisk` | file system and the writers of csv, Excel and SQLite on it |
| `MdbFile` | mdb.py:96-114, 133-209, 276-334 on databases with columns of their own: reading, generator tables, writing |
| `MdbSchema` | write_schema of the Access writer (mdb.py 217-275): host, arguments, column types, CREATE TABLE one by one, and write_file on a path that may have no file |
| `AmplSet` | set_ampl_data of both factories (ticdatfactory.py 1583-1606, pandatfactory.py 1648-1672) |
| `FKReport` | verbosity and as_table of `find_foreign_key_failures`, both factories |
| `PanDisk` | What the writers of a `PanDatFactory` leave on the disk (C93) |
| `Spec/CsvCells`, `Props/CsvCells`, `Props/CsvBack` | exactly which cells and which data objects come back from csv files (C46) |
| `Model/Sloc`, `Spec/Sloc`, `Props/Sloc` | `.sloc` (utils.py:1113-1156) beside `.loc`, beside a `Slicer`, and on the columns made by `copy_to_pandas` (C94) |
| `Spec/SqlCells`, `Props/SqlCells`, `Props/SqlBack` | exactly which cells and objects a SQLite database or a .sql file keeps (C47, C77) |
| `Spec/XlCells`, `Props/XlCells` | exactly which cells an Excel file keeps (C48) |
| `Props/XlBack` | exactly which objects an Excel file keeps (C48) |
| `Spec/JsonParams`, `Props/JsonParams` | exactly which objects json keeps, with declared parameters (C20) |
| `Spec/CsvParams`, `Props/CsvParams` | exactly which objects csv files keep, with declared parameters (C46) |
| `Spec/SqlParams`, `Props/SqlParams` | exactly which objects SQLite databases and .sql files keep, with declared parameters (C47) |
| `Spec/XlParams`, `Props/XlParams` | exactly which objects Excel files keep, with declared parameters (C48) |

### What is not modelled

* Floating point rounding (finite floats are exact rationals), NaN inside keys; `1` and `1.0` are one cell; in the heap
  model the dictionary keys `True` and `1` are distinct.
* File contents below the level of cells; the file system beyond names and existence; crashes while writing.
* Generic tables and generator tables in the readers and writers (they are in `Good`, `Copy` and `Factory`); foreign key
  links outside `Links` (they are attributes of rows and no function of the model reads them); arguments of `PanDat` that are not DataFrames; what `DataFrame(..)` does to values
  beyond turning `None` into NaN (a parameter of the theorems on `copy_to_pandas`).
* pandas-flavoured json, `mdb.py` (ODBC), the wire protocol of PostgreSQL, `testing/`, AMPL/OPL/LINGO runners.
* `Factory`: `_prepends`, `_linkName` (in `Links`), opl/lingo prepends; the order of tables in the schema is fixed; `clone` with
  `convert_dat` only in `RowPred` (C41); `PanDatFactory.clone` is not modelled.
* `obfusimplify`: sorting, set iteration and `upper` are abstract; generic tables excluded.
* The gurobipy branch of `Slicer`.
* `freeze_me`'s and `write_*`'s check `good_tic_dat_object` is not repeated in the freeze and writer models.

## Plan per property

| id | what is modelled | how it is proved |
|----|------------------|------------------|
| C01 | `find_foreign_key_failures` over keyed/un-keyed tables incl. scalar/tuple key special cases | refinement to a record-level spec |
| C02 | the same with the shared failure counter | prefix lemma on the event stream |
| C03 | `remove_foreign_key_failures` loop | well-founded recursion on the number of rows |
| C04 | same | one round = filter of records; greatest consistent sub-database by induction on rounds |
| C05 | PanDat's one-key-at-a-time loop | any fair schedule reaches the greatest fixpoint |
| C06 | `add_implied_foreign_keys` closure | invariant: verdict preserved per added key; counterexample for key-less foreign tables |
| C07 | `does_new_fk_complete_circle` | iff with reachability (`Relation.ReflTransGen`) |
| C08 | pg `_ordered_tables` | DFS invariant |
| C09 | sqlite `_ordered_tables` | DFS with fuel; converges iff acyclic, counterexample on a cycle |
| C10 | order of deletes and inserts in a postgres write | invariant over every prefix of the step list |
| C11 | `find_data_type_failures` | refinement to spec, both table kinds |
| C12 | `replace_data_type_failures` | post-condition, frame, idempotence |
| C13 | `TypeDictionary.valid_data` | decision logic iff spec |
| C14 | `TypeDictionary.safe_creator` | fixed point; refusal conditions |
| C15 | `find_data_row_failures` (TicDat and PanDat modes) | refinement; predicates are arbitrary functions into result-or-exception |
| C16 | `add_data_row_predicate` histories | invariant by induction on the history |
| C17 | `create_full_parameters_dict` | map lookup spec |
| C18 | `schema`, `create_from_full_schema` | round trip on reachable factory states |
| C19 | `_infinity_flag_write_cell`, `_general_read_cell` | round trip by cases |
| C20 | json dict writer / reader | round trip by induction on rows |
| C21 | name matching, `case_space_to_pretty` | string lemmas on `List Char` |
| C22 | csv header matching | spec of column assignment |
| C23 | `_fix_str`, `_insert_format` + SQL literal reader | counterexample; partial round trip for strings without quotes/semicolons |
| C24 | `all_underscore_replacements` | membership iff, no duplicates |
| C25 | `Slicer` with cache | refinement: cache invariant by induction on the history |
| C26 | `find_duplicates*` | counts by `List.count` |
| C27 | freezing | invariant over histories of guarded operations; counterexample for un-guarded dict mutators |
| C28 | factory state machine | invariant over histories |
| C29 | `TicDatDict` | invariant over histories |
| C30 | `td_row_factory` | exact spec |
| C31 | `deep_copy`/`copy_tic_dat`, heap model | copies disjoint from the original heap |
| C32 | `_pg_name` | string lemmas |
| C33 | `remove_trailing_all_nan` | binary search invariant |
| C34 | `obfusimplify` | injectivity |
| C35 | clone column edits | exact schema/ancillary effect |
| C36 | `_parameter_table_post_read_adjustment` | partial: digits-as-text counterexample |
| C37 | `_verify_differentiable_sheet_names` | counterexample (case) and partial |
| C38 | csv overwrite guard | counterexample (pretty names) and partial |
| C39 | `per_error`, `nearly_same` | algebra over extended rationals |
| C40 | `foreign_keys` cardinality | functional dependency theorem |
| C41 | `find_data_row_failures` after `clone(convert_dat)` | memo invariant; counterexample for shared makers |
| C42 | PanDat reading and writing of flags | cases; counterexample for automunged fields |
| C43 | flags on the parameters table | cases; counterexample without declared parameters |
| C44 | postgres compatibility check | distinct columns; counterexample for reserved words |
| C45 | `TicDat.__init__` from dictionaries and lists | induction over rows against a spec of rows |
| C46 | csv directory write and read | table round trip lifted over tables, cell lemma by cases |
| C47 | SQLite database and `.sql` file write and read | same |
| C48 | Excel write and read, both kinds | same, with the geometry of sheets |
| C49 | reading sheets at an offset, by header | index arithmetic on grids; general theorem on lost rows |
| C50 | the readers of csv, json, Excel, SQLite | two sources that agree on the matching names give the same result |
| C51 | `TicDat.__init__` from DataFrames | frames as columns, index and rows; spec of the cell of each field |
| C52 | `copy_to_pandas` | composition with C51, up to None/NaN |
| C53 | `PanDat.__init__`, `copy_pan_dat`, `copy_to_tic_dat` | same frames; exact condition by cases on index and labels |
| C54 | `good_tic_dat_object`, `TicDat.__init__` for tables of all kinds | spec of good attributes; the check and the constructor against it |
| C55 | `_try_make_foreign_links`, `_trigger_has_been_used` (link names) | fold invariants over foreign keys and native rows, against a spec in terms of records |
| C56 | `PanDatFactory.find_data_type_failures` on DataFrames as row lists | the shared counter as `take` of the list of all reported cells; agreement through `toPan` |
| C57 | `PanDatFactory.replace_data_type_failures`, with the KeyError of the eager default | exact case analysis of the outcome; the repaired object is unique, hence idempotence |
| C58 | what `create_pan_dat` does with the DataFrames it reads: defaults, `PanDat(..)`, cut to the fields | closed form of the result, from the theorem on `PanDat.__init__` (C53) |
| C59 | `_pre_write_adjustment`, file, `create_pan_dat`, `_general_post_read_adjustment` on whole DataFrames | column by column induction on the assignments; a frame is determined by its columns |
| C60 | the Excel reader: fill in, adjust, then `remove_trailing_all_nan` | NaN at the end of a column commutes with the adjustments; uniqueness of the split; counterexamples |
| C61 | `standard_main` as a sequence of observable calls (`Main`); file system, readers, report and `solve` are parameters | case analysis on the seven endings, of which no two can end the same name; the effects by following the branches |
| C63 | the checks and engine calls of `add_var`; the xpress state as a history (`Mip`) | case analysis; invariant: `_var_index` numbers the columns |
| C64 | `str.replace`, the plain part of `str.format` and `ampl_format` on lists of characters (`Ampl`) | each replacement is shown to work token by token, by induction over the tokens of the text |
| C62 | `_integrity_solve` with find_duplicates, on top of the pandas searches for types (C56), foreign keys (C05) and predicates (C15) | each report table shows, once each, the failures of the specification; rows of DataFrames are positional, the specification reads cells by column name |
| C65 | `Model/Mdb.lean`: statements of `write_file` on live and committed states, cells stored or refused by an arbitrary function | induction over rows and tables with what has been committed as invariant; round trip through `Props/DbIO.lean` |
| C66 | `Model/Pg.lean`: deletions and insertions with an arbitrary check after each statement, foreign keys as one such check | induction over statements; the order of C08 makes every intermediate state consistent |
| C67 | what each `find_duplicates` feeds to the counting loops, and what the matching reader makes of the same file | the records of a table as an intermediate; the report counts their keys exactly (from C26), the reader keeps the last record of each key, and a counting lemma relates distinct keys and surplus; two different readings of the same records are compared by the pairs of keys |
| C68 | `get_fld_type`, `nullable`, `db_default`, `default_sql_str`, `_get_schema_sql`, `write_schema`, `check_tables_fields`; a small PostgreSQL that runs the statements | iff by analysing the run statement by statement with the order theorem of C08; column types against an inductive specification |
| C69 | `PanDatFactory` as the same state record with its own `set_default_values`, `add_data_row_predicate` and `clone`; clones between classes | forget the predicates: each call commutes with forgetting, so states are `TicDatFactory` states and C18/C35 carry over; predicates by the fold that adds them |
| C70 | copy_from_ampl_variables and copy_to_ampl of both classes, amplpy variables as index/value lists with filters | induction over the entries with the content of the prefix as invariant; columns by the DataFrame lemmas of C51-C53 |
| C71 | `PostgresPanFactory.write_data`, `create_pan_dat` over the abstract PostgreSQL database of C66; `progress` and whether pandas commits each table are parameters | induction over the tables that are uploaded, the inserts as in C66; reading is cell by cell (`Props/PanCells`), rows are matched through a permutation |
| C72 | the four file factories of pandatio.py over named DataFrames (`Model/PanFiles`): the writers, how readers find names, the tables, both json formats; pandas is a parameter | names are compared after normalising case and blanks, so that a written name is the only one found; per table the stored rows of C71 are followed through pandas and `_general_post_read_adjustment` |
| C73 | `as_dict` over objects with tables of all kinds, `to_dict` a parameter (`Model/AsDict`) | rows with all fields are rebuilt as they are; the tables are listed in the order of the schema |
| C74 | `_same_data` (`Model/SameData`), with `per_error` over numbers with NaN and Python's `max` and `min` | cells, rows, tables and the loop, one equivalence each; for distinct rows a pairing by induction |
| C75 | Readers with generator tables as objects in two parts: tables in memory, and what the function of each generator table remembers (`Model/GenFiles`); rows are a function of that and of the files as they are at the time. | Reading a part of the schema gives that part of the object (`readAll_filter`); one general theorem `lazy_read` for the three formats; the loop of `write_directory` with files emptied before they are read. |
| C76 | `create_generic_free`, the csv writer and reader and the SQLite writer and reader for schemas with generic tables | the new schema and object computed exactly, then the csv round trip table by table with separate settings for writing and reading; raising by membership in the loops |
| C77 | Databases as named tables with named columns, affinity, defaults and primary key; table lookup, field check, select by name, INSERT by name with defaults and key check, the loops of `write_db_data` with rollback | the rows seen through the fields of the schema are those of C47's model: induction over rows, then over tables; reading by congruence of the readers |
| C78 | copy_pan_dat, _copy_to_tic_dat with generic tables as DataFrames or as rows, the fresh TicDatFactory and what it verifies of generic columns, and _same_data on top of the models of C53, C54 and C74 | explicit value of the copy of every table, exactly when a table cannot be copied; the loop of the comparison over tables by induction; for keyed tables, inclusion of keys and equal length give equality (pigeonhole) |
| C79 | change_fields_with_reserved_keywords and find_case_space_duplicates on the factory state | the copying loop by induction; the renamed names stay distinct because no name begins with an underscore; undo composed with renaming is the identity on names |
| C80 | `JsonTicFactory.create_tic_dat` and `write_file` with a file system and a json library as parameters; the pandas branch by way of the `PanDat` reader and `copy_to_tic_dat` | composition of C20, C52, C72 and C78; the file system by cases on the guard |
| C81 | `_dtypes_for_pandas_read`, `to_csv` cell texts, `read_csv` column types | column-wise characterisation of what is read; refinement to the round trip of C72 with the store induced by the column types |
| C82 | `PanDatFactory.obfusimplify` as the composition of the models of `copy_to_tic_dat` (C78), `obfusimplify` (C34), `copy_to_pandas` (C52) and the `PanDat` constructor (C53) | the rows of a DataFrame are the records of the table made from it; C34 relates these to the records of the copy; `copy_to_pandas` with `reset_index` writes one row per record |
| C83 | nested objects as trees whose containers carry identities; `deep_copy`, `deep_freeze` and the accessors of a factory give out new identities from a counter | mutual induction on objects; a change to a container is a substitution for its identity, and separation is invariance of the one object under all changes to the other |
| C84 | `Progress` and its callbacks for the three solvers, with an arbitrary `mip_progress` where it may be overridden | cases on the numbers; linear arithmetic over rationals |
| C85 | `log_table` as the list of lines written | induction on the cells of a row: column `j` starts at `j` times the width |
| C86 | the `_dv_dt` dictionaries of the csv and Excel readers, `_none_as_infinity_bias_cache`, and histories of factory calls, reads and look-ups | invariants over histories: remembered settings are the present ones while types and defaults stay; remembered signs are right; a counterexample for settings changed after `find_duplicates` |
| C87 | the configuration calls of both factory classes (already modelled in `Factory` and `PanFactory`), with a separate specification of which calls are allowed and what they do | case analysis per call over reachable states; induction over the given default values |
| C88 | the four writers as functions from one state of the disk to the next and a raised flag, also when they raise half way | case analysis over the guards; induction over the tables for the csv loop, with the first failing row found by induction over the rows |
| C89 | Access databases as lists of tables with named columns, defaults and keys; reading, generator tables, and writing with its commits | reading refines the reader of C65 on what the schema sees of the database; writing by a simulation between the two connections, row by row; locality by an invariant of all steps |
| C90 | write_schema of mdb.py with its checks, the declared tables with types, the creation of files, and write_file on a path | induction over the tables of the schema; the new database meets the hypotheses of the round trip of C89 |
| C91 | set_ampl_data with its checks, over an arbitrary AMPL and iteration order | induction over the order; permutations for commuting calls |
| C92 | the argument checks, names and values of the reports around `findFK` and `panFindRows` | injectivity of both kinds of names; C01 and C05 for the contents |
| C93 | `PanDisk`: the five writers on a file system, with the libraries as parameters that write, break off or refuse | induction over the tables; `panHanded_iff` says which objects pass the checks |
| C94 | `Sloc.__getitem__`, `Sloc.add_sloc` and where `copy_to_pandas` calls it; `.loc` is a parameter with two laws | cases on `.loc`, and the theorem on slicers (C25) |

The table above is the plan; the status of each claim is in `MANIFEST.json`.

## Where the code and the stated property disagree

Each entry is a theorem: either a concrete run of the model or a general statement.  The property theorem then carries
the condition under which the claim holds.

* **C01** `find_fk_repeated_foreign_field_misses`: a key that maps two native fields to one foreign field checks only one.
* **C05** `pandat_crossed_fields_wrong`: PanDat's merge mixes up fields when a key crosses field names.
* **C06** `implied_fk_pkless_changes_verdict`: an implied key through a table without primary key changes the verdict.
* **C09** `sqlite_order_diverges_on_cycles`: the table ordering never returns on cyclic keys.
* **C11** `find_types_flags_bool_primary_key`: untyped primary keys also refuse Booleans and datetimes.
* **C13** `valid_int_infinity_asymmetric`: `must_be_int` accepts `inf` and refuses `-inf`.
* **C17** `full_params_raises`: parameters whose names are not strings raise `TypeError`.
* **C18** `implied_key_breaks_schema`, `number_parameter_breaks_schema`, `cleared_type_entry_lost`; exactly these classes
  break (`schema_round_trip_sharp`).
* **C19** `int_min_infinity_not_flagged`: `-inf` in an integer field is written as it is.
* **C20** `json_long_row_truncated`, `json_string_row`, `json_bool_becomes_number`.
* **C21** `pretty_name_not_matched`: names with characters like the sharp s are not found under their pretty name.
* **C22** `csv_header_unchecked`: headers are not checked in files without data lines and if repeated exactly.
* **C23** `adjacent_quotes_silently_changed`, `quote_and_semicolon_unreadable` (an exact characterisation is proved).
* **C27** `frozen_table_can_be_cleared`, `frozen_table_other_leaks`: `clear`, `popitem`, `setdefault`, `|=` change frozen tables.
* **C28** `remove_parameter_after_use`: parameters can be removed after use.
* **C29** `update_breaks_shapes`, `dataless_row_accepts_fields`.
* **C31** `generator_copy_follows`: copies of generator tables follow the original; `foreign_field_blocks_copy`.
* **C34** `two_entities_raise`, `skipped_entity_raises`, `data_field_key_raises`, `many_tables_raise`.
* **C35** `generic_table_blocks_clones`, `dropped_generator_raises`, `empty_restriction_keeps_tables`,
  `generator_predicate_blocks_clone`, `only_column_cannot_be_renamed`, `parameters_column_cannot_be_renamed`,
  `no_first_table`.
* **C36** `param_digits_become_number`: text parameters that read as numbers become numbers where numbers are allowed.
* **C37** `sheet_check_misses_case`: the check on sheet names is case-sensitive, the matching is not.
* **C38** `pretty_write_overwrites`: with pretty names the guard looks at the wrong file names.
* **C41** `shared_maker_gets_converted_dat`: maker results are remembered by maker only.
* **C42** `pan_automunge_misses_flag`; **C43** `undeclared_parameters_lose_infinity`; **C44** `reserved_word_missed`.
* **C45** `list_rows_ignore_defaults`, `list_rows_ignore_missing_key`.
* **C46** `csv_number_key_becomes_text`, `csv_empty_text_becomes_infinity`, `csv_duplicates_unnoticed`,
  `csv_case_fields_unreadable`.
* **C47** `sql_plain_bool_becomes_number`, `sql_true_text_becomes_bool`, `sql_inf_text_becomes_number`,
  `sql_digits_become_number`, `sql_plain_infinity_not_flagged`, `sql_plain_infinity_becomes_text`, `sql_nan_becomes_none`.
* **C48** `xlsx_formula_text_changes`, `xlsx_empty_text_becomes_none`, `xls_boolean_becomes_number`,
  `xls_none_becomes_text`, `xl_infinity_text_becomes_number`, `xlsx_infinity_becomes_text`, `xlsx_nan_raises`,
  `xl_trailing_row_lost`, `xl_duplicates_unnoticed`.
* **C49** `xlsx_blank_top_rows_lose_data`: blank rows above a table drop as many rows of data from its end.
* **C51/C52** `default_hides_index`: a default value for a key field is used instead of the index; `name_field_no_way_back`;
  `generic_copy_is_name`: `copy_to_pandas` returns the name of a generic table; `null_key_changes`.
* **C53** `pan_no_columns_no_defaults`, `pan_index_numbered_data`, `pan_tic_disagree_on_default_key`,
  `pan_name_field_no_tic`, `index_order_matters_for_tic`.
* **C54** `generator_rows_assert`: a non-empty container for a generator table fails the duplicate test under the default
  policy; `generic_columns_assert`, `good_order_matters`, `generous_accepts_unbuildable`, `generous_refuses_buildable`.
* **C55** `links_repeated_foreign_field_raises`, `links_same_native_fields_lost` (two foreign keys with the same native fields
  share one link, the later wins), `links_underscore_clash`, `links_method_name_raises`; `freeze_misses_links`: `_freeze` reads
  `_allDataDicts` but the tables are collected in `_all_data_dicts`, so link tables of a frozen object stay editable, and
  reading a missing key adds it (`reading_link_adds`).
* **C57** `pan_replace_key_field_raises`: `replacement_values.get((table, field), self.default_values[table][field])` evaluates the
  default even if it is not needed, so an entry for a primary key field without a default raises `KeyError`; the docstring says
  that an entry in `replacement_values` is enough.
* **C60** `xls_blank_becomes_infinity`, `xls_blank_gets_default`: the Excel reader of PanDat turns null into infinity (flag
  `None`) and fills in default values before it removes trailing blank rows, so that blank rows at the end of the sheet can
  become rows of data.
* C61: the report of integrity errors is always written by a `PanDatFactory`, but for `TicDat` engines `.sql`, `.mdb` and
  `.accdb` names are taken for files as well, so that `--errors e.sql` raises an `AttributeError` after the checks are done
  (`main_errors_sql`). An empty name given to `--input` passes for no input at all, and `solve` is called with `None`
  (`main_empty_input`).
* C63: over cplex a failed `optimize` does not forget the solution of an earlier one, and `get_solution_value` returns its
  values; over xpress it raises (`cplex_stale`).
* C64: `ampl_format` checks that its markers do not occur in the text, but a text that ends in `_ticdat_ampl_format_[` before
  a substitution makes up a marker together with the first character of the next one; the substitution is then lost and an
  exception raised (`ampl_format_marker_overlap`).
* `_integrity_solve` identifies rows by the leading cells of the DataFrame row and takes the last cell as the error message
  if the row is longer than the schema (utils.py:372-376, 413-415): with columns in another order the report identifies rows
  by wrong cells, with a further column its value is reported as "Error Message" of a Boolean predicate
  (`report_column_order`, `report_extra_column_message`). Generic tables make line 358 raise.
* mdb.py `write_file` looks up the type of a field of a table with primary key under its name in brackets; with
  `infinity_io_flag = None` an infinity is therefore handed to Access as it is instead of as NULL (`mdb_none_flag_keyed`,
  `mdb_none_flag_fails`).
* mdb.py `write_file` checks `allow_overwrite=False` table by table while writing, so a refused write may have written
  earlier tables (`mdb_refused_write_changes`).
* pgtd.py `write_data` commits the deletion of old rows before any insertion, so a failing write loses them
  (`pg_failed_write_loses_rows`).
* pgtd.py `write_data` inserts rows of a table that refers to itself in the order of the data object; consistent data may be
  refused (`pg_self_reference_order`).
* pgtd.py `write_data` with `active_fld` deletes rows that are marked inactive (`pg_write_deletes_inactive`).
* C67: `find_duplicates` of SQLite, Access and PostgreSQL reads keys without the infinity flag and data types of the factory:
  with `set_infinity_io_flag(1000)` the keys 1000 and 2000 become one row, and nothing is reported
  (`db_infinity_flag_merges_unreported`); with a flag, SQLite text keys "inf" and "Inf" are reported although they are kept
  apart (`sql_reported_but_kept`).
* C67: `json.find_duplicates` looks only at the exact table names, while `json.create_tic_dat` also reads a table from a case
  or blank variant of its name (`json_name_variant_not_checked`).
* C67: `xls.find_duplicates` always treats "inf" as infinity, even for files read with `treat_inf_as_infinity=False`
  (`xls_reported_but_kept`).
* C67: `duplicates_ticdat_init="assert"` never triggers for csv, Excel and SQLite input, whose readers pass dictionaries that
  have merged the records already; only json input raises (`assert_policy_blind`).
* `write_schema` raises for foreign keys to fields that are not the whole primary key, for untyped data fields that refer to
  untyped key fields (`float` against `text`), and for circles, all of which the rest of ticdat accepts
  (`pg_schema_key_to_data_field`, `pg_schema_untyped_reference`, `pg_schema_circle`).
* pgtd.py:146 builds a `TicDatError` without raising it: a data type that admits neither numbers nor strings ends in a
  `TypeError` (`pg_schema_neither`).
* Default texts are not escaped in `CREATE TABLE` (`pg_schema_default_quote`); an infinite default without numeric flag is
  written as `inf` (`pg_schema_infinite_default`); a field forced to `date` keeps the default 0
  (`pg_schema_forced_date_default`).
* `include_ancillary_info=False` forgets the declared parameters, so the value column of the parameters table is `float`
  (`pg_schema_bare_parameters`).
* **C69.** A `TicDatFactory` with enabled foreign key links cannot be cloned to a `PanDatFactory`
  (`rtn.enable_foreign_key_links` does not exist there): `links_block_pan_clone`.
* **C69.** `PanDatFactory.add_data_row_predicate` accepts a generic table, `TicDatFactory.add_data_row_predicate` refuses it,
  so such a factory cannot be cloned to a `TicDatFactory`: `generic_pred_blocks_tic_clone`.
* **C69.** `PanDatFactory.set_default_values` checks the values one at a time while setting them, so a bad value leaves the
  earlier ones of its table in place; `TicDatFactory` checks a table before setting it: `half_applied_defaults`.
* C70: a primary key field with a default value makes copy_from_ampl_variables use the default as key of every row; a single
  row silently gets the wrong key (`ampl_default_key`).
* C70: copy_from_ampl_variables raises for tables with a data field called "name" (`ampl_name_field`), like every `TicDat`
  built from a DataFrame (C51).
* C70: a generic table anywhere in the schema, excluded or not, makes copy_to_ampl raise KeyError in both classes and
  PanDatFactory.copy_from_ampl_variables raise AttributeError (`ampl_generic_blocks`, `pan_copy_from_ampl_generic`).
* C70: PanDatFactory.copy_to_ampl hands a renamed primary key field to AMPL twice, as index column and as data column
  (`pan_renamed_key_twice`).
* PostgresPanFactory.write_data: if the progress callback says to stop, the rows of the tables not yet uploaded are deleted,
  nothing is written in their place, and no error is raised (`pg_pan_stop_loses_rows`). A failed write loses the old rows as
  well, and may have written some tables (`pg_pan_failed_write_loses_rows`).
* `CsvPanFactory.create_pan_dat` says in its docstring that missing tables throw an exception; the code only prints a note
  and reads the table as empty (`pan_file_missing`), as do the Excel and SQLite readers.
* The csv and SQLite PanDat writers do not look for other spellings of their table names. Writing `Cats.csv`
  (case_space_table_names) into a directory that has `cats.csv` leaves both, and the directory can no longer be read
  (`pan_csv_stale`). For SQLite, an old table that agrees up to case makes `to_sql` raise even with `if_exists="replace"`,
  and one with blanks for underscores makes the file unreadable (`pan_sql_stale`).
* C73: the dictionary that `as_dict` makes of an object with a generic table that has more columns than rows is refused by
  the constructor under the default setting for duplicates: `len` of the dictionary is the number of columns
  (`as_dict_wide_generic`).
* C39, C74: `nearly_same` says that NaN is nearly the same as every number (and every finite number nearly the same as NaN),
  because `max(abs1, abs2)` with NaN first is NaN, and with NaN second is the number compared with itself (`nearlySame_nan`);
  so `_same_data` with `epsilon > 0` takes NaN for any number (`same_data_nan_any_number`).
* C74: `_same_data` does not count repeated rows of tables without primary key, and is not symmetric
  (`same_data_not_symmetric`); it raises for generic tables with columns (`same_data_generic_raises`).
* C75: `csv.write_directory(dat, d, allow_overwrite=True)` of an object with generator tables that was read from `d` loses
  the rows of those tables without an error: `open(f, 'w')` empties the file before the generator reads it
  (`csv_generators_overwrite_loses`).
* C75: `xls.write_file(dat, f, allow_overwrite=True)` of such an object over its own `.xlsx` file removes the file first and
  then raises because the generator cannot find it: all sheets are lost (`xlsx_generators_overwrite_destroys`).
* C75: `xls.create_tic_dat` refuses generator tables with its default arguments (`xl_generators_default_refused`); with
  generic tables as well it can never succeed.
* C76: `create_generic_free` leaves out empty generic tables, so an old file `t.csv` of a generic table that is empty now is
  neither overwritten nor removed, even with `allow_overwrite=True`, and is read back as the table (`csv_generic_stale` and
  the example after it).
* C76: a generic table with rows and a column called `name` cannot be written to csv, SQLite or Excel: the DataFrame is
  passed to a factory that has `name` as a data field, which `good_tic_dat_table` refuses (`generic_name_column`).
* C76: an object of a schema with both generator and generic tables cannot be written at all (`generic_with_generator`).
* C76: the new factory forgets data types, default values, the infinity flag and parameters. In SQLite all data fields of all
  tables are declared INT, so text like `007` is stored as 7 (`sql_generic_text_becomes_number`); `case_space_table_names` is
  ignored by the csv writer.
* C76: a .sql file written for an object with an empty generic table cannot be read back: the table is missing, and `create_tic_dat_from_sql` selects no columns from it; a database file without it can be read (`sql_generic_missing`).
* C78: PanDatFactory._same_data raises for objects in which a generic table is an empty DataFrame, which is what PanDat()
  makes of a generic table when nothing is passed for it: the table becomes a schema entry without fields, which
  TicDatFactory refuses (pandatfactory.py:1115-1119, ticdatfactory.py:662). An object cannot even be compared with itself
  (`pan_same_empty_generic`). The same happens for generic tables with numbered columns or columns that differ by case only.
* change_fields_with_reserved_keywords (and its undo) returns a factory without the foreign keys, predicates, parameters,
  tooltips, generator tables, flags of the original: nothing but fields, default values and data types is copied (theorems
  `reserved_renamed`, `Spec.Bare`). Both it and find_case_space_duplicates raise IndexError if there is a generic table.
* C80: `create_tic_dat` takes an empty json object for the pandas layout (`all` over no values), so a schema with a field
  called "name" (not a primary key of its own) raises on `{}` although it reads `{"t": []}` (`json_detection_fails`).
* C80: if all tables have just the fields `columns` and `data`, a file in the pandas layout is taken for rows, and its keys
  are read letter by letter (`json_detection_fails`).
* C80: json `write_file` with `allow_overwrite` opens the file before it encodes: if a cell cannot be encoded the old content
  is lost (`json_write_outcome`).
* C81: a field declared as text still loses texts such as "NA" that pandas takes for missing values (no
  `keep_default_na=False` at pandatio.py:311); they come back as NaN (`csv_text_exact`).
* C82: columns of the `PanDat` that are not fields are missing from the obfuscated copy, and a data field called "name" makes
  `obfusimplify` raise although the `PanDat` is good (as in C78). Outside the model: `copy_to_pandas` gives the name of a
  generic table instead of its data (C52), so the copy of an object with generic tables cannot be built.
* `primary_key_fields` and `data_fields` return the factory's own `FrozenDict` objects (`primary_key_fields_is_own`): with
  C27, `f.primary_key_fields.clear()` changes the factory. `parameters` shares a parameter's default value when it is a list
  (possible with `enforce_type_rules=False`). `deep_copy` raises on an object with a datetime in it, and splits a list that
  occurs twice.
* Boolean parameter values become numbers: both factories read `True` in a parameters table back as 1
  (`param_boolean_becomes_number`, C36).
* `add_cplex_listener` passes the dictionary `no_feasible_yet` instead of one of its values while cplex has no incumbent, so
  that `mip_progress` raises (`cplex_listener_raises`, C84). `mip_progress` refuses `inf` as lower bound even with `inf` as
  upper bound.
* `set_parameters` of `Model` is not atomic (`set_parameters_not_atomic`), and after a failed solve `get_mip_results` of a
  cplex model combines the bound of the failed solve with the objective value of an earlier one (`mip_results_mixed`).
* `log_table`: cells as wide as their column run into the next one (`log_table_ambiguous`); a `max_write` of -2 or less
  leaves out rows from the end (`log_table_negative`).
* C86: the csv and Excel readers remember the default value and data type of each field they have read and never forget them.
  `find_duplicates`, or a `create_tic_dat` that fails, fills this memory without locking the factory, so a later
  `set_data_type` or `set_default_value` succeeds but is ignored by the reader (`stale_settings`).
* C87: `set_default_values` is not atomic: when it raises for one table the values of the tables before it are already set,
  and in a `PanDatFactory` also the fields before the bad one (`set_default_values_not_atomic`).
* C88: `xls.write_file` removes an existing `.xlsx` file before the new book is built. If building it raises (NaN in a table
  is enough), the old file is gone and there is no new one (`xlsx_failed_write_loses_file`).
* C88: `sql.write_sql_file` does not check the object and empties an existing file before it makes the statements
  (`sql_text_failed_write_empties`).
* C88: `sql.write_db_data` to a path without a file leaves a database with empty tables when it raises
  (`sqlite_failed_write_leaves_file`); `csv.write_directory` leaves a mix of new, broken off and old files
  (`csv_torn_directory`).
* Access (`mdb_existing_refused_changes`, C89): a `write_file` that is refused because a later table is not empty has already
  filled the earlier ones, in databases of any layout. (`mdb_refused_write_changes` is the same for databases of
  `write_schema`.)
* mdb.py write_schema makes the file and commits each CREATE TABLE by itself; if one of them fails (for instance two fields
  that differ only by case) the file stays behind with the earlier tables. A second write_schema is refused at the first
  table, and write_file no longer calls write_schema because the file exists, so that path raises from then on
  (`mdb_half_schema`, `mdb_write_needs_tables`).
* set_ampl_data iterates over `set(self.all_tables).intersection(dir(tic_dat))`, so AMPL gets the tables in an order that
  changes with the hash seed; an AMPL that wants a set before the data indexed over it accepts the call in one run and
  refuses it in another (`set_ampl_depends_on_order`).
* `JsonPanFactory.write_file` and `write_file_pd` open the file before `json.dump` (pandatio.py:179-180, 250-251) and have no
  guard against overwriting: a value that json does not know raises after the previous file is gone (`pan_json_loses`).
* `SqlPanFactory.write_file` with `if_exists="fail"` finds out table by table that a table exists: the tables before it are
  left behind in the database (`pan_sql_disk` and the example after it).
* The check of `CsvPanFactory.write_directory` that `kwargs` does not have `index` (pandatio.py:364) never fails, since
  `index` is a named argument of the method.
* `.sloc` hides mistakes (`sloc_hides_mistakes`, C94): every exception of `.loc` is answered with an empty series if the key
  has a full slice, also that for a key with more entries than the index has levels. And `copy_to_pandas` gives the columns
  of a table without rows no `.sloc` (`sloc_columns`), so code that slices to be safe from empty slices raises
  `AttributeError` on empty tables.
* (C47) Under `infinity_io_flag = None` a field without data type keeps an infinity in a SQLite database but not in a .sql
  file, where it comes back as the text `inf` (`sql_inf_containers`).

## Axioms per theorem

Output of `#print axioms` for every theorem named in `MANIFEST.json` (names without the prefix `Ticdat.`).

* **none**: Spec.Obfuscates.names_iff, deep_freeze_factory, generic_copy_is_name, mip_results_last
* **Classical.choice, Quot.sound, propext**: add_parameter_spec, add_var_domain, adjacent_quotes_silently_changed, ampl_default_key, ampl_format_exact, ampl_format_marker_overlap, ampl_name_field, ampl_result_shaped, as_dict_contents, as_dict_round_trip, as_dict_wide_generic, assert_policy_blind, assign_dict_iff, auto_name_never_clobbers, built_is_good, callbacks_never_disturb, cardinality_one_iff, case_space_duplicates_iff, circle_warning_exact, cleared_type_entry_lost, cloneAdd_reachable, cloneRemove_reachable, clone_add_append, clone_add_column, clone_add_table, clone_between, clone_remove_column, clone_rename_column, clone_same, clone_tables_kept, copied_can_be_set, copies_independent_partial, copy_equal_partial, copy_from_ampl, copy_pan_dat_same, copy_to_ampl, copy_to_tic_dat_iff, copy_view, cplex_listener_raises, cplex_value, create_reachable, csv_case_fields_unreadable, csv_cell_iff, csv_cell_survives, csv_cells_by_header_partial, csv_column_order, csv_duplicates_unnoticed, csv_empty_text_becomes_infinity, csv_example_flag, csv_extra_columns, csv_file_found_partial, csv_find_duplicates_agrees, csv_find_duplicates_exact, csv_generators_copy, csv_generators_gone, csv_generators_local, csv_generators_overwrite_loses, csv_generators_present, csv_generators_read, csv_generic_flag, csv_generic_needs_headers, csv_generic_read_back, csv_generic_round_trip, csv_generic_stale, csv_header_unchecked, csv_missing_empty, csv_missing_or_ambiguous, csv_no_overwrite_partial, csv_number_key_becomes_text, csv_numbers_exact, csv_other_files, csv_overwrite_iff, csv_read_back, csv_round_trip, csv_round_trip_iff, csv_round_trip_params_iff, csv_table, csv_table_local, csv_text_columns, csv_text_exact, csv_torn_directory, csv_two_files_raise, csv_undeclared_text_lost, csv_write_keeps, csv_write_outcome, csv_write_refused, csv_write_succeeds, data_field_key_raises, dataless_key_shapes, db_infinity_flag_merges_unreported, deep_copy_spec, deep_freeze_spec, dropped_generator_raises, empty_restriction_keeps_tables, factory_shows_copies, find_duplicates_exact, find_fk_exact, find_fk_max_failures, find_rows_converts_partial, find_rows_exact, find_rows_max_failures, find_rows_unhandled, find_types_exact, find_types_max_failures, fix_param_iff, fk_report_exact, freeze_misses_links, full_params_raises, full_params_spec_partial, generator_copy_follows, generator_predicate_blocks_clone, generator_rows_assert, generic_bad_columns, generic_free, generic_name_column, generic_pred_blocks_tic_clone, generic_table_blocks_clones, generic_with_generator, implied_fks_same_verdict_partial, implied_fks_terminates, implied_key_breaks_schema, init_duplicates, init_frames, init_from_dict, init_from_frame, init_from_rows_partial, init_kinds_iff, init_plain, init_well_shaped, int_min_infinity_not_flagged, integrity_report_empty, integrity_report_exact, json_assert_iff_reported, json_bad_documents, json_bool_becomes_number, json_cell_iff, json_cell_survives, json_detection_fails, json_example_flag, json_file_round_trip, json_find_duplicates, json_key_matches_partial, json_long_row_truncated, json_missing_empty, json_name_variant_not_checked, json_names_free, json_other_keys, json_param_iff, json_read_back, json_reads_pandas_file, json_refusals, json_round_trip_iff, json_round_trip_params_iff, json_round_trip_partial, json_string_row, json_table, json_table_local, json_to_pandas_dict, json_to_pandas_same, json_two_keys_raise, json_write_outcome, keys_only_sets_defaults, linkName_distinct, linkName_single, links_block_pan_clone, links_exact, links_exact_by_table, literal_round_trip_iff_partial, log_table_ambiguous, log_table_negative, log_table_no_file, log_table_raises_iff, log_table_shows, looks_pandas_iff, lookup_inserts_default, lookup_wrong_shape_raises, main_bad_input, main_effects, main_empty_input, main_errors_sql, main_format_unique, main_help, main_read_format, main_same_format, main_write_format, many_tables_raise, mdb_existing_local, mdb_existing_outcome, mdb_existing_refines, mdb_existing_round_trip, mdb_find_duplicates, mdb_generators_read, mdb_half_schema, mdb_missing_field_raises, mdb_missing_table_empty, mdb_new_file_round_trip, mdb_no_overwrite, mdb_none_flag_fails, mdb_none_flag_keyed, mdb_reads_by_name, mdb_refused_write_changes, mdb_round_trip, mdb_schema_then_write, mdb_write_needs_tables, mdb_write_outcome, mdb_write_schema_iff, mdb_write_schema_outcome, mdb_write_schema_twice, mem_underscoreReplacements, mip_progress_accepts_iff, mip_progress_inf, mip_progress_ordered, mip_progress_prints, na_flag_round_trip, named_pred_frame, nearlySame_fin, nearlySame_infinite, nearlySame_nan, nearlySame_refl, nearlySame_scale, nearlySame_symm, no_first_table, none_flag_raises, none_flag_round_trip, none_flag_write, norm_pretty, num_flag_bounded, num_flag_other, num_flag_round_trip, num_flag_survives, number_parameter_breaks_schema, numerical_progress_spec, obfusimplify_example, obfusimplify_renames, obfusimplify_returns, only_column_cannot_be_renamed, pan_clone_add_column, pan_clone_add_table, pan_clone_remove_column, pan_clone_rename_column, pan_copy_from_ampl, pan_copy_from_ampl_generic, pan_copy_same, pan_copy_to_ampl, pan_csv_disk, pan_csv_round_trip, pan_csv_stale, pan_csv_types_round_trip, pan_file_missing, pan_file_round_trip, pan_find_rows_exact, pan_fk_report_exact, pan_fk_report_limit, pan_init_good, pan_init_iff, pan_init_to_tic, pan_json_lol_round_trip, pan_json_mixed_refused, pan_json_pd_disk, pan_json_pd_round_trip, pan_json_round_trip, pan_none_flag_round_trip_partial, pan_num_flag_round_trip_partial, pan_obfusimplify_example, pan_obfusimplify_refuses, pan_obfusimplify_renames, pan_obfusimplify_returns, pan_param_text_round_trip, pan_read_dat, pan_read_lol, pan_read_table, pan_renamed_key_twice, pan_replace_data_fields, pan_replace_key_field_raises, pan_replace_types_partial, pan_rows_same_as_tic, pan_same_empty_generic, pan_same_iff, pan_same_raises, pan_schema_round_trip, pan_setters_exact, pan_sql_append, pan_sql_disk, pan_sql_round_trip, pan_sql_stale, pan_state_is_tic_state, pan_types_exact, pan_types_max_failures, pan_types_same_as_ticdat, pan_used_fixed, pan_used_setters_raise, pan_write_same_as_tic, pan_xls_disk, pan_xls_round_trip, pandat_find_fk_max_failures, pandat_remove_fk_greatest, pandat_remove_order_independent, pandat_remove_same_as_ticdat, param_check_spec, param_date_survives, param_null_survives, param_text_survives, parameters_column_cannot_be_renamed, pgName_fixed_iff, pgName_idempotent, pgName_legal, pg_append_existing_key, pg_bool_default, pg_column_holds_valid, pg_failed_write_loses_rows, pg_find_duplicates, pg_integer_column_infinity, pg_key_infinity_null, pg_order_spec, pg_pan_failed_write_loses_rows, pg_pan_missing_empty, pg_pan_reads_active, pg_pan_round_trip, pg_pan_stop_loses_rows, pg_pan_write_outcome, pg_pan_write_succeeds, pg_round_trip, pg_schema_bare_parameters, pg_schema_circle, pg_schema_default_quote, pg_schema_forced_date_default, pg_schema_infinite_default, pg_schema_key_to_data_field, pg_schema_then_check, pg_schema_untyped_reference, pg_self_reference_order, pg_write_deletes_inactive, pg_write_never_breaks_fks, pg_write_outcome, pg_write_schema_bare, pg_write_schema_iff, pg_write_schema_result, pg_write_succeeds, pretty_name_not_matched, pretty_write_overwrites, quote_and_semicolon_unreadable, reads_by_any_name, reads_current_partial, remove_fk_greatest, remove_fk_terminates_clean, remove_parameter_after_use, replace_types_spec, report_column_order, report_extra_column_message, report_says, reserved_renamed, reserved_round_trip, reserved_undone, reserved_word_missed, row_setItem_spec, safeCreator_iff, safe_creator_spec, same_data_generic_raises, same_data_iff, same_data_nan_any_number, same_data_nan_not_refl, same_data_not_symmetric, same_data_refl, same_plain_iff, schema_file_takes_rows, schema_round_trip_partial, schema_round_trip_sharp, set_ampl_calls, set_ampl_order, set_objective_means, shared_maker_gets_converted_dat, sheet_check_misses_case, sheet_clash_iff, sheet_clash_raises, sheet_found_partial, size_add_surplus, skipped_entity_raises, slicer_answers, sloc_hides_mistakes, sloc_like_slicer, sloc_matches, sloc_of_table, sql_cell_iff, sql_db_needs_keeps, sql_db_needs_params, sql_db_params_keeps, sql_db_round_trip, sql_db_round_trip_keeps, sql_digits_become_number, sql_file_needs_keeps, sql_file_needs_params, sql_file_params_keeps, sql_file_round_trip, sql_file_round_trip_keeps, sql_file_row_iff_partial, sql_find_by_name, sql_find_duplicates, sql_generators_read, sql_generators_write, sql_generic_missing, sql_generic_no_overwrite, sql_generic_table, sql_generic_text_becomes_number, sql_inf_containers, sql_inf_text_becomes_number, sql_missing_empty, sql_nan_becomes_none, sql_other_tables, sql_param_iff, sql_plain_bool_becomes_number, sql_plain_infinity_becomes_text, sql_plain_infinity_not_flagged, sql_reported_but_kept, sql_table_local, sql_text_failed_write_empties, sql_text_missing_table_raises, sql_true_text_becomes_bool, sql_two_tables_raise, sqlite_duplicate_key_restores, sqlite_existing_db_round_trip, sqlite_existing_db_round_trip_keeps, sqlite_existing_no_overwrite, sqlite_failed_write_leaves_file, sqlite_missing_field_raises, sqlite_missing_table_empty, sqlite_order_spec, sqlite_reads_by_name, sqlite_write_local, sqlite_write_missing_table, sqlite_write_outcome, stale_settings, strict_good_builds, table_shapes_partial, text_param_iff, text_param_survives, tic_setters_exact, to_pandas_exact, to_pandas_good_pan, to_pandas_round_trip, two_candidates_raise, two_entities_example, two_entities_raise, unaryText_ok, underscoreReplacements_nodup, used_fixed, valid_data_iff, xl_cell_iff, xl_cell_stored, xl_duplicates_unnoticed, xl_formats, xl_generators_default_refused, xl_generators_no_overwrite, xl_generators_present, xl_generators_read, xl_generators_write, xl_infinity_text_becomes_number, xl_missing_empty, xl_missing_or_ambiguous, xl_needs_keeps, xl_other_sheets, xl_param_iff, xl_param_survives, xl_read_back, xl_round_trip, xl_round_trip_iff, xl_round_trip_keeps, xl_round_trip_params_iff, xl_sheet_names, xl_sheet_read_no_headers_partial, xl_sheet_read_partial, xl_table_local, xl_trailing_row_lost, xl_two_sheets_raise, xl_write_keeps, xl_write_outcome, xl_write_refused, xls_boolean_becomes_number, xls_find_duplicates_agrees, xls_none_becomes_text, xls_number_becomes_date, xls_reported_but_kept, xls_trailing_blank_partial, xlsx_blank_top_rows_lose_data, xlsx_empty_text_becomes_none, xlsx_failed_write_loses_file, xlsx_formula_text_changes, xlsx_generators_overwrite_destroys, xlsx_infinity_becomes_text, xpress_value
* **Quot.sound**: callbacks_pass_bounds
* **Quot.sound, propext**: add_indicator_means, ampl_generic_blocks, as_dict_generators, assign_scalar_iff, assign_seq_iff, bias_current, clients_independent, copy_raises, cplex_stale, csv_cells_by_position, dataless_row_accepts_fields, default_hides_index, find_types_flags_bool_primary_key, find_types_untyped_pk_only_null_partial, first_read_wins, foreign_field_blocks_copy, freeze_changes_no_contents, freeze_establishes, freeze_succeeds, frozen_attempts_raise, frozen_forever_partial, frozen_table_can_be_cleared, frozen_table_other_leaks, generic_columns_assert, generous_accepts_unbuildable, generous_good_iff, generous_is_copy_check, generous_refuses_buildable, generous_table_iff, good_raises_only, half_applied_defaults, index_order_matters_for_tic, init_object, json_write_only_path, keyOK_iff, links_method_name_raises, links_refused, links_repeated_foreign_field_raises, links_same_native_fields_lost, list_rows_ignore_defaults, list_rows_ignore_missing_key, mip_results_mixed, name_field_no_way_back, null_key_changes, numberNanLastRows_spec, panHanded_iff, pan_automunge_misses_flag, pan_index_numbered_data, pan_json_disk, pan_json_loses, pan_name_field_no_tic, pan_no_columns_no_defaults, pan_tic_disagree_on_default_key, pandat_find_fk_exact, param_boolean_becomes_number, param_digits_become_number, param_number_survives, param_table_survives, parameters_not_flagged_partial, pg_default_text_exact, pg_schema_neither, prune_exact, reading_link_adds, remove_trailing_exact, set_ampl_depends_on_order, set_default_values_not_atomic, set_defaults_agree, set_flag_positive, set_parameters_not_atomic, set_parameters_sets, sheet_check_lower_partial, sloc_as_loc, sloc_columns, sql_text_write_outcome, strict_good_iff, tables_fixed, to_pandas_default_not_good_pan, undeclared_parameters_lose_infinity, update_breaks_shapes, used_setters_raise, xls_blank_becomes_infinity, xls_blank_gets_default, xlsx_nan_raises
* **propext**: add_constraint_means, csv_long_line, data_fields_is_own, deep_copy_datetime, deep_copy_splits, dfApply_trip, factory_shows_frozen, good_order_matters, link_is_the_row, links_underscore_clash, makersAgree_of_no_conversion, parameter_default_is_own, pgCompatible_columns_distinct_partial, primary_key_fields_is_own, response_modes_agree, valid_int_infinity_asymmetric
