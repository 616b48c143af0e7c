# Formal model of ddl_tools: design

Subject: the Python package in /repo (`dt/`, `ddltools/`), read as text. It was neither built nor run.
`properties.jsonl` lists the properties (source: `tools/props.py`), `MANIFEST.json` the theorems per property
(source: the theorem names in `lean/Verif/Props/` and the notes in `tools/notes.json`, joined by `tools/manifest.py`),
`seeded/LOG.jsonl` the mutation experiments.

## 1. Trusted base

* Lean 4.33.0's kernel. No own axioms, no `sorry`, no `native_decide`, no `bv_decide`.
  `#print axioms` on every theorem named in MANIFEST.json gives a subset of `propext`, `Classical.choice`, `Quot.sound`;
  nothing else occurs. (At the last check: 19 theorems use no axiom, 53 only `propext`, 112 `propext` and `Quot.sound`,
  284 all three.) Concrete witnesses are closed with `decide` or `decide +kernel`, both checked by the kernel.
* The hand translation from Python to Lean. Every definition cites file and lines. There is no mechanical link between
  /repo and the model; this is the largest trusted part. Section 3 says what was left out. As a check of the translation, the
  assertions of the repository's own unit tests hold of the model (`Verif/Tests.lean`): those of dt/tests and those of dt/review/tests
  that can be had without a server, with the test files and the workbooks in the repository as inputs. The workbook
  dt/tests/test_excel.xlsx, which the code wrote, is what the model writes, apart from two columns added later. These are tests, not proofs.
* The specification layer (`Verif/Spec/`): what the words in a property mean, and in particular what TQL text means.
  /repo has no TQL engine, so the engine is ours (section 4).

## 2. Method

* Shallow model: each Python function becomes a total computable Lean function with the same branches in the same order.
  Exceptions are values (`Except PyErr α`). A writer that can fail halfway returns the text so far plus the error
  (`Output = Str × Option PyErr`).
* Strings are `List Char` (`Str`); the `str` methods used by the code are defined in `Verif/Py/Str.lean`, the regular
  expressions as backtracking matchers in `Verif/Py/Re.lean`. A regular expression of the code becomes the pattern value of
  the same shape; `search`, `match` and `split` follow Python (leftmost match, greedy repetition, groups).
* `dict` / `OrderedDict` are association lists in insertion order (`Verif/Py/Dict.lean`).
* Objects are values. Object identity matters at one place only (`ShardKey` has no `__eq__`); there the comparison takes
  an explicit "same object" predicate.
* Iteration order of a Python `set` is a parameter; theorems hold for every order.
* Loops without an evident bound (circular review, recursion of the chain reviews) take a fuel parameter; the theorems either
  give a sufficient amount (C47, C49) or prove that no amount suffices (C56 on cyclic maps).
* The TQL server, the file system and the libraries openpyxl, xlrd and yaml are parameters or oracles.
* Specifications are written without the model's helper functions. Theorems about properties live in `Verif/Props/` with a
  concrete `example` beside each; helper lemmas in `Verif/Lemmas/`.
* Where the code violates a property: the negation is proved on a concrete witness, and the strongest correct variant is
  proved under the name `..._partial`, with the missing part named in the docstring and in MANIFEST.json.

## 3. What is modelled and what is not

| /repo | model | left out |
|-------|-------|----------|
| dt/util.py | `ConfigFile` in Config.lean, with its messages; sequences of calls in Api.lean | operating system errors |
| dt/model.py 28-912 | `Database`, `Table`, `Column`, keys, constructors, counters in Model.lean; `DatabaseValidator` in Validator.lean | text output methods, logging |
| dt/model.py 913-1157 | `Worksheet*` in Worksheet.lean | mutation of a worksheet after it is built |
| dt/generator.py | all statement generators in Generator.lean | |
| dt/io.py `TQLWriter` | Generator.lean, `smart_open` in Cli.lean and Console.lean | |
| dt/io.py `DDLParser` | Parser.lean; its messages, with their wording, in Reports.lean | `logging.debug` |
| dt/io.py `XLSWriter`, `XLSReader` | Excel.lean, messages of the reader in ExcelReports.lean | the message on a foreign key without a name, which xlrd makes unreachable; fonts and column widths; cell text that openpyxl refuses (control characters) |
| dt/io.py `YAMLWorksheetReader` | Worksheet.lean | YAML syntax: the document `yaml.safe_load` returns is the input; mapping keys that are no texts |
| dt/diff.py | `DDLCompare`, all differences, `write_alters` in Diff.lean; `__repr__` and the listing in Listing.lean | |
| dt/review/review_tests.py | all reviews in Review.lean, what they print in ReviewConsole.lean | |
| dt/review/review.py | `DataModelReviewer.review_model` in Review.lean, what it prints and `get_test_descriptions` in ReviewConsole.lean | |
| ddltools/*.py | `main`, argument checks and file actions in Cli.lean; terminal output of convert_ddl in Console.lean, of review_model in ReviewConsole.lean, of ddldiff in DiffConsole.lean; options, `print(args)`, exit status and the two output streams of a run in CommandLine.lean | texts of the usage line and of the help (parameters), tracebacks |
| `argparse` (library) | `parse_args` of Python 3.11 for parsers with options only, its error messages and `repr` of a `Namespace` in Argparse.lean; compared with the library on random option tables and command lines | positional arguments, subparsers, other `nargs`, types and choices (not used by the code); layout of usage and help |

Simplifications that hold everywhere:

* `str.lower/upper` and `re.IGNORECASE` act on ASCII letters only. (Python also folds other scripts; the only non-ASCII
  characters that `re.IGNORECASE` identifies with ASCII letters are U+0130, U+0131, U+017F and U+212A.)
* White space is the set `isSpace` in `Py/Str.lean` (Python's `str.isspace`, also used for `\s`).
* `None` arguments are modelled where the code tests for them; otherwise arguments have the documented types.
* Encoding errors in writing, memory and recursion limits are not modelled (C49 has the recursion limit as a parameter).
* `int(text)` reads ASCII digits of any number; Python also knows other digits and refuses more than 4300 (`sys.int_info`).
* `repr` of a list of names is exact for ASCII; characters beyond ASCII are kept, also those that Python would escape (only in messages of the validator and the reviews).
* Floats are rational numbers (`Py/Float.lean`): divisions in the sharding review round to the nearest double, ties to even, which agrees with
  Python on 3000 random quotients. The sign of a zero and `inf` are not modelled. Printing of floats is a parameter.
* `PyErr.unmodelled` stands for errors of the operating system and of libraries and for inputs outside the model. Theorems
  never use it as a success.

Files and servers:

* A file is identified by the spelling of its path. `foo` and `./foo` are two files.
* The state of a file is a text, unreadable, undecodable after some text, or absent. How much of an undecodable file is read before the error depends on Python's buffers and is a
  parameter, and so is the message. A workbook read as a text cannot be decoded from the start. Writing can be refused by a permission predicate.
* The remote TQL server is a function from commands to answers. The statistics and query answers the reviews use are
  arbitrary; the properties say what follows from an answer.

Excel:

* What the reader sees is what the writer stored, passed through `stored`. A text satisfying `plainText` comes back unchanged
  and an integer as the number; everything else comes back as an arbitrary function's value. The theorems hold for every such
  function. That openpyxl and xlrd keep plain texts is trusted.
* Cells that are numbers where a name is needed are `unmodelled`.

## 4. The meaning of TQL

`Spec/TQL.lean` cuts a script into tokens and statements and reads each statement; `Spec/Catalog.lean` executes the statements on a
catalogue. Assumptions about the server:

* The spellings the generator prints, e.g. `ADD CONSTRAINT FOREIGN KEY "n" (..)` and `SET DIMENSIONS`, are accepted.
* A quoted name ends at the next double quote. There is no escape.
* `DROP TABLE` of a missing table does nothing. Creating or adding something that exists, or dropping or changing something
  that does not, is refused.
* A table can only be created in the default schema or in one that was created before.
* Whether a key's columns or its target exist is not checked by the engine (C20 and C24 say when they do; C88 and C89 are about a server that checks it).
* Foreign keys and relationships share one name space per table.
* A table reference without a schema means the schema of the altered table.

## 5. Plan per property

| id | modelled | specification | theorems | how proved |
|----|----------|---------------|----------|------------|
| C01-C06, C97 | Model | History | Props/Registry, Props/Constructors (C06) | ordered-map invariant by induction over histories |
| C07-C11 | Model, Validator | History, WellFormed | Props/Validation | counters by double counting; issues are exactly the defects of a declarative predicate; totality |
| C12-C16 | Diff | Catalog | Props/Compare, ScriptExact (C13) | merge loop over two sorted lists characterised by membership |
| C17, C20 | Diff | Catalog, MigrateOrder | Props/Migrate, Props/MigrateExact, Props/MigrateOrder | executing the differences on the catalogue; the converse by following one table, and in it one constraint, through the list (Lemmas/MigrateNeeds) |
| C18, C19 | Diff, Generator | TQL, Catalog | Props/AlterScript | text to tokens to statements to catalogue |
| C22, C23 | Generator | Case | Props/Case | string induction |
| C24-C26 | Generator | TQL, Catalog | Props/TqlScript, ScriptExact | as C18, with an order invariant; exact conditions: a constraint stays while keys are added, so a second one of the same name is refused; changing the case twice changes nothing more |
| C27, C28 | Parser, Generator | RoundTrip | Props/RoundTrip | lines and statements of written text; each pattern on each statement |
| C29, C30, C62 | Parser | Types | Props/Types | case analysis over all strings |
| C31-C33, C71 | Parser | Lines | Props/Lines | simulation of the buffer loop |
| C21, C34, C36, C37 | Parser, Diff | Parse | Props/Parse | invariant of the statement fold |
| C35 | Parser | CreateTable | Props/CreateTable | scanning of the field list by depth, patterns on each field |
| C38-C43 | Excel | Excel | Props/Excel | round trip over an abstract workbook; locality of the row folds |
| C44, C45 | Config | Config | Props/Config, Props/Constructors (C44_equal) | line-level round trip, fold invariant |
| C46 (chains), C47-C49, C56 | Review | Graph | Props/Graph, GraphExact, MoreExact | reachability, simple-path enumeration |
| C46 (sharding), C50-C55 | Review, Py/Float | Review, Float | Props/Review, ReviewExact (C52) | decision logic over oracle answers; C51: rounding is unique and nearest, and carries no quotient across a limit (Lemmas/Float) |
| C57, C58, C63 | Worksheet | Worksheet | Props/Worksheet, Props/ColumnIds (C57) | list invariants; first occurrence of `::` for column ids |
| C74 | Parser | Alter | Props/Alter | each greedy pattern on a text whose phrases occur once |
| C75 | Excel | Formulas | Props/Formulas | meaning of the formulas; counting rows sheet by sheet |
| C76 | Cli, Diff | Catalog, TQL, Cli | Props/DiffAlters, Props/DiffExact | C17, C18, C19 and C36 put together |
| C77 | Reports | Reports | Props/Reports | functions that also return the messages, shown to agree with Parser; case analysis |
| C78 | Listing, Diff | Listing | Props/Listing | C14-C16, C36 and C60 put together; counting by bijections between differences and entries |
| C79 | Parser | CreateKeys, CreateTable, Alter | Props/CreateKeys | the list extended by the clause, which the parser takes for a part of the last field; greedy matching from the end |
| C80 | Parser, Reports | WholeFile, CreateKeys, Alter, Lines | Props/WholeFile | induction over the statements with the tables so far; the messages of a CREATE TABLE do not depend on the database |
| C81 | ExcelReports, Excel | ExcelReports, Excel | Props/ExcelReports | loops with messages; the tables known do not change after the sheet Tables (C40, C42); C81_lines_differ compares the printed lines from both ends |
| C82 | Cli, Parser, Generator, Diff | EndToEnd, WholeFile, Catalog, TQL | Props/EndToEnd | C11, C25, C36, C65, C76 and C80 put together; the run is computed, so that success is proved, too |
| C83 | Console, Cli, Validator | Console, WellFormed, Excel | Props/Console | programs that say something; without what they say they are those of Cli.lean; the steps after reading are one list, by induction on it; C08, C09, C36 and C42 for the lines on defects and databases |
| C84 | Config | Config | Props/Config | the message about a line computed from its code on both sides of the first equal sign; case analysis; induction on the lines |
| C85 | ReviewConsole, Review | ReviewConsole, Review | Props/ReviewConsole | reviews that say something; without what they say they are those of Review.lean; the relation between text and queries is closed under sequence; C54 for the verdicts on joins |
| C86 | ReviewConsole, Cli | ReviewConsole, Cli, Graph | Props/ReviewConsole | each argument check is one possible line; the run on a file by C36, C47, C48, C49, C50 |
| C87 | DiffConsole, Listing | DiffConsole, Cli | Props/DiffConsole | text on the standard output is a relation closed under sequence; the parts of the run are those of diffMain |
| C88 | Generator, Validator | StrictServer, Catalog, RoundTrip (printed databases), WellFormed | Props/StrictServer, ScriptExact | the statements under case options are those of the printed database without options; adding keys changes neither columns nor primary keys, so a reference that is in order at the end is so on the way; C08 |
| C89 | Diff, Generator | StrictMigrate, StrictServer, MigrateOrder | Props/StrictMigrate | state of every table before each entry (Lemmas/MigrateOrder, `own_pk`), then entry by entry; C17, C18 |
| C90 | Reports | Reports | Props/ReportText | a pattern matches exactly the texts of its shape (`shaped_some`, `caught` in Lemmas/Shapes), pieces of `re.split` (`pieces`); then by cases |
| C91 | Argparse, CommandLine | CommandLine (a grammar of command lines) | Props/CommandLine, Lemmas/Argparse, ArgHelp | the scanner of argparse accepts exactly the grammar (`parseArgs_iff`): soundness by induction on the words, completeness by induction on the derivation; the same for the grammar of the command lines that ask for the help (`parseArgs_help`); the option tables are compared with those of the README by `decide` |
| C92 | CommandLine | CommandLine | Props/Runs, CliExact | the Namespace printed has the value that C91 gives; C60 |
| C93 | CommandLine | CommandLine, StrictServer reader | Props/Runs | the output begins with `Namespace(`, which no statement begins with; C83, C87 |
| C94 | CommandLine | CommandLine | Props/Runs, CliExact | the parts of the run are those of Cli.lean (C83, C87); C60; validation cannot fail on a database that was read |
| C95 | Parser, Reports, Config, Console, DiffConsole, ReviewConsole | CommandLine | Props/Decoding | a file that cannot be decoded is read like its beginning; writing does not depend on the input file any more (`Blind`) |
| C98 | CommandLine, Console, DiffConsole, ReviewConsole | Console, DiffConsole, ReviewConsole, WellFormed | Props/Streams | the steps after reading other than validation say nothing on the error stream; C08, C09 for validation |
| C99 | Parser, Cli | Breaks, Types | Props/Breaks, Lemmas/Breaks | the cut of a list is a function of its text (`fieldsOf_iff`); the type of a field is what follows its name (`typePart_iff`); C29; folds that stop at the first exception |
| C100 | Parser | Statements, Lines | Props/Statements (also C31_exactly, C32_exactly, C71_exactly) | the reader keeps raws ++ pieces of the buffer = pieces of the text so far; what is left over is the maximum over the ends of the file (`foldl_addText_count`); inserting lines: `late_insert`, `pieces_glue` |
| C101 | Parser | Reading | Props/Reading (also C62_exactly) | greedy patterns: `longest_iff` (Longest ↔ reMatch for every pattern made of words and gaps), `search_iff` for the hash clause; `converts_iff`, `nameAndRest_iff`, `typeAhead_iff`, `createdName_iff`, `fieldKeys_iff` read the pieces; each relation is shown total and functional; `does_iff`, `doAll_iff`, `stops_iff` put them together |
| C102 | Reports | Messages | Props/Messages | for each kind of statement: the relation is total (`hashTold_total`, …) and what it says is what the code says (`hashTold_some`, …), so both agree; `constraintsTold_some` keeps only the name of the table along the loop; `told_iff`, `tellAll_iff` |
| C103 | Excel | Workbook | Props/Workbook | each row reader ends in `e` exactly if `RowFails` (`tableRow_fails`, `columnRow_fails`, `fkRow_fails`, `relRow_fails`); `foldlM_error_iff` finds the first such row; `Sheets.describes` and `describes_unique` say that what is read is the only thing described
| C104 | ExcelReports, Excel | WorkbookSays, Workbook, ExcelReports | Props/WorkbookSays | the split at the first failing row from C103, `foldTold_append`/`foldTold_raise` for the messages up to it, the complaints of C81 for the rows seen; uniqueness from C81 |
| C105 | Worksheet | WorksheetFails, Worksheet | Props/WorksheetFails | one `_error_iff` lemma per reader (`readWsTable_error_iff` ... `readFormulasOf_error_iff`), `foldlM_wrong` for the first wrong entry, `createWorksheet_error_iff` puts them in order; C105_one with `createWorksheet_ok_iff` of C58 |
| C106 | Api, Config | Api, Config, Statements | Props/Api | every call is a list of settings (`run_puts`), all calls together one fold (`run_all`); last value and names by induction from the end; C106_equal from C44_equal |
| C107 | Api, Console | Api | Props/Api | induction over the calls from any result |
| C108 | Api, Config | Api, Config, Statements | Props/ConfigSaved | what a line sets fits into a file (`sets_fit`), so loaded configurations do; C44_round_trip for what fits; the converse because what was loaded fits and C106_equal |
| C109 | Model, Validator | WellFormed | Props/ValidKept | well-formedness table by table (`wellFormed_iff`), kept if the targets stay (`InOrder.mono`); C08 on both sides |
| C110 | Model, Validator, Review | WellFormed, Graph, Review | Props/ValidReviews | a valid database has no dangling reference (`valid_not_dangling`); C47, C49 and C52 with their hypotheses discharged |
| C111 | Diff, Generator | WellFormed | Props/DiffOrder | sorted names and look-ups do not see the order (`get?_of_perm`, `sort_of_perm`); the merge loop keeps equality of the statements (`alters_mergeLoop`) |
| C33, C41, C43, C46, C55 exactly | as above | as above, LooksAtText in Spec/Review | Props/MoreExact | from C100 and the partial theorems; C41: lines that begin and end alike can be told apart; C46: every failing row fails in the same way |
| C96 | Parser | Names | Props/Names | from file to names: what splitting, slicing and patterns leave of a text; from names to a file: quotes between all characters of a name hide every phrase |
| C72, C73 | Cli, Parser, Generator | RoundTrip, Parse | Props/Again | C27, C36 and C65 put together |
| C59-C61, C64-C70 | Cli | Cli | Props/Cli, CliExact (C66) | effect model over a file system, decision logic |

## 6. Where the code does not do what one would expect

Each entry has a theorem that proves it on a concrete case.

Model and validator
* A schema of which a table was once replaced by `add_table` stays listed for ever, with or without tables (`C03_schema_names_exactly`,
  `C03_ghost_schema`).
* Unnamed foreign keys replace each other (`C05_unnamed_foreign_keys_collide`).
* A foreign key that names a target column twice is accepted (`C10_duplicate_target_column_accepted`).
* A column list changed after construction can make the validator raise (`C11_validate_raises_on_tampered_key`).

Comparison
* A foreign key between differently named columns differs from itself (`C12_self_compare_reports_foreign_key`), so swapping the
  arguments does not swap the report (`C13_swap_fails`) and a file differs from itself (`C21_foreign_key`, `C70_sharded`).
* Equal shard keys are reported as changed (`C16_equal_shard_keys_reported`, `C21_sharded`); a changed foreign key of the same name can
  go unreported (`C16_changed_foreign_key_not_reported`).
* The differences do not always lead from one database to the other: keys of new tables are lost, new schemas are not created, a move to
  another schema and a changed foreign key are missed, a name can clash (`C17_*`; `C17_exactly` says for which pairs nothing goes wrong).
* ALTER text is wrong for names with quotes, tables without columns and fractional shard counts (`C18_*`); adding a primary key
  raises (`C19_raises_exactly`); keys come before the columns and tables they need (`C20_key_on_new_column`, `C20_target_created_later`, `C20_target_column_later`), so a checking
  server refuses the script (`C89_refused`).

TQL writer
* Two underscores in a row are not removed by camel case as expected (`C23_consecutive_underscores`).
* A key to another schema refers to a table that is never created (`C24_other_schema`); a foreign key and a relationship of one
  name clash (`C25_name_clash`); key clauses keep the original case (`C26_upper_case`), so that a server that checks references refuses the
  scripts of valid databases (`C88_upper_refused`, `C88_other_schema_refused`); of two tables printed alike only the last is left (`C25_collision`).

DDL parser
* Several semicolons on a line lose statements (`C33_statements_lost`); lines that start with GO are dropped
  (`C33_batch_lines_lost`); comments and blank lines can release or separate statements (`C31_comment_*`, `C32_blank_line_*`).
* Code before a block comment is glued to the line before (`C71_glues`); dashes in a block comment hide its end, so that a banner
  comment swallows the rest of the file (`C71_dashes_hide_end`), and so does GO at the start of the line (`C71_batch_hides_end`); of
  several comments on a line only the first is left out (`C71_second_comment`).
* ALTER statements that other databases accept are lost or misread: a second ADD (`C74_second_add`), ADD FOREIGN KEY without CONSTRAINT
  (`C74_without_constraint`), no blank before the referenced columns (`C74_without_blank`), a bracketed name with a blank
  (`C74_bracket_cut`), options after the columns of a primary key and column orders (`C74_key_options`).
* The counts in the sheet "Tables" are wrong for names that differ in letter case only (`C75_letter_case`), with wildcards (`C75_wildcard`), and for
  a table with the name of a header, since whole columns are counted (`C75_header_name`).  How a spreadsheet program compares is a parameter.
* ddldiff with --alter1 or --alter2 stops with a ValueError as soon as a primary key has to be added (`C76_raises`, `C76_primary_key`).
* ALTER TABLE statements that the parser does not know, as for columns, are dropped without a message (`C77_ignored`, `C77_no_constraint`), and a table with
  the empty name silences the message about shard keys (`C77_empty_name`).
* ddldiff's list shows equal shard keys as added and misses changed foreign keys (`C78_same_file`, `C78_moved_key`).
* In CREATE TABLE, a primary key keeps back quotes in its names, is taken for a column if no blank follows KEY, and is lost if it is a part of a column, in
  one case with the column (`C79_backticks`, `C79_without_blank`, `C79_inline`). Foreign keys are not kept (`C79_foreign_key`). CREATE OR REPLACE loses the
  shard key (`C79_or_replace`). A partition clause can change the type of the last column (`C79_number`, `C79_text_after_type`).
* C80: a table created twice is counted twice in its schema (`C80_twice`). A statement about a table that is created later is lost (`C80_too_early`), with a message.
* C81: a row of "Tables" without a database is skipped in silence even if it names a table (`C81_blank_database`); a shard key with 0 shards is dropped in silence (`C81_zero_shards`). The reader prints that the table of a relationship is unknown and then fails with an AttributeError (C43).
* A NUMBER of few digits becomes INT, and INT is read as BIGINT: converting a converted file changes it again (`C72_int`), a database with text after a VARCHAR type needs two trips (`C28_type_text`), and ddldiff
  finds a difference between a file and its conversion (`C73_int`).
* ALTER statements with the words CREATE TABLE are taken for a new table (`C34_alter_taken_for_create`).
* A column whose declaration contains `key ` is lost, commas in names split columns, `if not exists` becomes part of the name, a closing
  parenthesis after the list takes a column (`C35_*`).
* Without a file name the parser does not read standard input but raises (`C37_no_standard_input`).
* Written TQL is not always read back: foreign keys with `constraint` or ` add` (as in "mail address") in their names, relationships with
  `foreign`, columns with `key ` or an open parenthesis, foreign keys to columns such as `a (b)`, primary keys with blanks, conditions with ` as `, tables with a primary key and no column; every table
  comes back in the parser's schema (`C27_*`).

Excel
* Relationship names, empty databases, shard keys with 0 shards and foreign keys without columns are not kept (`C38_*`; nothing else is lost: `C38_exactly`); schemas without tables are lost
  (`C41_schema_lost`); rows of the sheet Relationships with an unknown table raise (`C43_*`); a sheet without rows raises
  (`C40_empty_sheet`); of two columns with the same header the last one counts, so their order matters for the 20 headers the reader looks
  under (`C39_double_header`, `C39_exactly`).

Configuration, reviews, worksheets
* `set_primary_key` with a tuple raises and has removed the primary key (`C97_key_lost`).
* Settings read from a file are texts, so the reviews raise on them (`C46_*`); `review_model` never loads the file (`C69_*`).
* `relates_to_previous` does not return on cyclic maps (`C56_cyclic_never_returns`).
* With more than 10^23 rows rounding hides that a table has too few rows per shard (`C51_rounding`).
* Join and sharding reviews raise on short keys, tables without columns and zero shards (`C51_zero_shards`, `C52_*`).
* The worksheet join review tests a column of the wrong table (`C54_tests_foreign_column`).
* A formula without name or expression drops all later formulas (`C58_formulas_dropped`).
* Each line of a worksheet file after the first gets a blank in front (`C63_unchanged_iff`).

Command line
* A failed parse of a server's answer leaves the temporary file (`C59_left_behind`), so does a refusal (`C67_refused`); the temporary
  file replaces one of that name (`C64_temporary_replaces`).
* Some admitted argument combinations raise (`C60_admitted_and_raises`); `--version` of review_model needs other arguments
  (`C60_review_version`), and the line it prints names convert_ddl (`C86_version`).
* The review of long chains announces paths of more than 2 steps and reports those of more than 3 (`C86_file`); joins whose
  foreign key is not found are reported with `None` in place of its name (`Spec.JoinSaid`).
* A missing input empties the TQL file (`C66_truncated`).
* `--ignore_case` of ddldiff has no effect (`C68_*`).
* The README uses `--ts_url` (sample command of convert_ddl) and documents `--show_descriptions` (review_model). Neither is declared; both command lines end with status 2
  (`C91_sample_refused`). `--config_file` of review_model is declared and not documented.
* `print(args)` in the `main` of convert_ddl and review_model prints the password, also the default one (`C92_convert_shows`, `C92_review_shows`).
* For the same reason the output of `--to_tql -` and of ddldiff is not a script: the first line is the Namespace (`C93_no_script`).
* Insufficient arguments, files that do not exist (ddldiff, review_model) and invalid databases (`-v`) end with status 0 (`C94_undocumented`, `C94_validation`).
* A DDL file that cannot be decoded is used as far as it could be read: convert_ddl replaces its outputs with those of the beginning of the file and ends with status 0 (`C95_partly_converted`),
  ddldiff tells to drop the tables in the rest of the file (`C95_drops`). `load_from_file` raises `UnicodeDecodeError` and keeps the settings before (`C45_undecodable`, `C84_undecodable`).

## 7. Mutation tests

Each theorem is tested by editing a model definition the way a programmer might get it wrong, in a copy of the project, and
rebuilding. `seeded/LOG.jsonl` has one line per attempt, whatever came of it. `claim` is the property predicted beforehand to break,
`outcome` says what happened:

* `noticed`: a theorem of the predicted claim fails (for a generated edit: some theorem or lemma that is not a concrete case).
* `noticed through a lemma`: a lemma used in the proof of a theorem of the predicted claim fails. These runs are one build each
  (`method`); `theorems_failed` are the theorems whose proofs use what failed. The lemma was not set aside, so it was not
  checked that the theorem itself has become unprovable. This outcome says less than `noticed`.
* `noticed, but not by a theorem of the predicted claim`: the prediction was wrong, other theorems fail.
* `inconclusive`: the edited file does not check, or the failing declarations in `blocked_by` could not be set aside, so the theorems behind them were not checked.
  Most of the latter were run again and have a second line.
* `not noticed`: everything still proves. Where a theorem was added or tightened the later line for the same edit names it.

Edits called `generated` come from a random mutator and have no predicted claim. Their run stops at the first failure, so
`first_failures` names one declaration, often a helper lemma, and `theorems_failed` stays empty. 51 generated edits did not
typecheck; they are logged as inconclusive and tested nothing. Three edits for C111 were run twice because of a slip in the
bookkeeping of dependencies; only the second record is kept (see their `note`). Before an earlier revision the log left out the generated edits, the first outcomes of edits that were
run again, and inconclusive runs, and gave six edits the claim that failed instead of the one predicted.
