#!/usr/bin/env python3
"""Source of /verif/properties.jsonl: run `python3 tools/props.py` from /verif to regenerate it."""
import json
P = []
def p(title, statement, quantifier, why, anchors):
    P.append(dict(id="C%02d" % (len(P) + 1), title=title, statement=statement, quantifier=quantifier,
                  why_tests_cant=why, anchors=anchors))

M, D, G, IO, U = "dt/model.py", "dt/diff.py", "dt/generator.py", "dt/io.py", "dt/util.py"
RT, RV = "dt/review/review_tests.py", "dt/review/review.py"
CV, DD, RM = "ddltools/convert_ddl.py", "ddltools/ddldiff.py", "ddltools/review_model.py"

# ---------------------------------------------------------------- data model
p("A table's columns are an insertion-ordered map",
  "After any sequence of add_column / add_columns / drop_column calls on a Table, a column is present exactly when the last call naming it was an add, it carries the definition of that last add, it is listed once, and iteration / get_column_names list the present columns in the order in which they were (re)born, i.e. first added since their last drop. has_column, get_column and number_columns agree with that listing, and drop_column returns exactly the column that was present.",
  "every finite history of add/drop calls, every column name and definition",
  "the claim is about all call histories; re-adding an existing name keeps the old position while drop+add moves it, so only an invariant over histories settles order",
  [f"{M}:Table.add_column", f"{M}:Table.drop_column", f"{M}:Table.get_column_names", f"{M}:Table.__iter__"])
p("A database's tables are an insertion-ordered map",
  "After any sequence of add_table / drop_table calls, get_table(n) returns the last table added under the name n unless n was dropped since, number_tables and get_table_names count each present name once, iteration yields the present tables in birth order, and drop_table returns the table that was present (or None) and removes nothing else.",
  "every finite history of add_table / drop_table calls",
  "quantifies over all histories, including overwrites and drops of absent names",
  [f"{M}:Database.add_table", f"{M}:Database.drop_table", f"{M}:Database.get_table"])
p("Schema listing tracks the tables",
  "After any history, get_schema_names lists every schema that some present table belongs to, never lists a schema twice, and, if no add_table replaced a table already present under the same name, lists no other schema. (With a replacement the listing can keep a schema no table is in.)",
  "every finite history of add_table / drop_table calls",
  "reference counting bugs show only on particular histories (overwrite then drop); a test samples a few",
  [f"{M}:Database.add_table", f"{M}:Database.drop_table", f"{M}:Database.get_schema_names"])
p("drop_table never fails",
  "drop_table never raises, whatever add_table / drop_table calls came before: the schema counter it looks up is always there and positive.",
  "every finite history followed by a drop of any name",
  "the KeyError would need a history in which the counter under-counts; absence of such a history is universal",
  [f"{M}:Database.drop_table"])
p("Foreign keys and relationships are registered by name, defaults collide",
  "add_foreign_key / add_relationship keep exactly the last definition given for each name, in order of first use of the name. Without a name the name is FK_<from>_to_<to> (REL_<from>_to_<to>), so among unnamed foreign keys of one table exactly the last one per target table survives.",
  "every finite list of foreign keys / relationships added to a table",
  "silent loss depends on combinations of targets and names across the whole list",
  [f"{M}:Table.add_foreign_key", f"{M}:Table.add_relationship", f"{M}:ForeignKey.__init__", f"{M}:GenericRelationship.__init__"])
p("Constructors only build well-formed columns and keys",
  "Column(...) succeeds exactly for a non-None name and a type that is one of the ThoughtSpot types or begins with VARCHAR; ForeignKey(...) succeeds exactly for non-None arguments with as many from-columns as to-columns; Table(...) succeeds exactly for a non-None name and schema; scalars and one-element lists build the same object; the object holds exactly the values given.",
  "every argument combination",
  "the accepted set is infinite (any VARCHAR... text, any key length)",
  [f"{M}:Column.__init__", f"{M}:ForeignKey.__init__", f"{M}:ShardKey.__init__", f"{M}:Table.__init__", f"{M}:Table.get_shard_key_columns", f"{M}:Table.set_primary_key"])
p("Relationship counts balance",
  "The sum over all tables of get_number_relationships_from_table equals the sum over all tables of get_number_relationships_to_table plus the number of foreign keys / relationships whose target table is not in the database; both functions raise ValueError exactly for a table name not in the database.",
  "every database",
  "a double-counting identity over arbitrary sized databases",
  [f"{M}:Database.get_number_relationships_from_table", f"{M}:Database.get_number_relationships_to_table"])
p("The validator's verdict is exactly the documented well-formedness",
  "validate() reports a valid database if and only if no column has type UNKNOWN, every primary key column exists, every shard key column exists and (if there is a primary key) belongs to it, every foreign key targets an existing table with as many columns as that table's primary key, each target column lies in that primary key and exists, each source column exists, paired columns have equal types or are both VARCHAR, and every relationship starts at the table it is stored on and targets an existing table.",
  "every database",
  "an if-and-only-if over all databases: tests can only sample the no-false-positive side",
  [f"{M}:DatabaseValidator.validate", f"{M}:DatabaseValidator._validate_foreign_keys"])
p("Validation reports every defect, at its table, and never stops early",
  "Each defective column, primary key column, shard key column, foreign key and relationship contributes an issue whose text names the database and the table it belongs to; UNKNOWN types are warnings, all others errors; is_valid is False exactly when there is an issue (of any level); validating the same database twice gives the same issues.",
  "every database, every defect in it",
  "completeness of reporting for arbitrary combinations of defects",
  [f"{M}:DatabaseValidator._add_validation_issue", f"{M}:ValidationResult.add_issue"])
p("In a validated database a foreign key covers the target's primary key",
  "If validate() accepts, then every foreign key's to-columns are exactly the primary key columns of the target table (each once).",
  "every database accepted by the validator",
  "a semantic consequence of acceptance; the accepted set is infinite",
  [f"{M}:DatabaseValidator._validate_foreign_keys"])
p("Validation never raises on databases built through the API",
  "For every database whose foreign keys were built by the ForeignKey constructor, validate() returns a result and does not raise.",
  "every database built with the API",
  "absence of exceptions for all inputs",
  [f"{M}:DatabaseValidator.validate"])
# ---------------------------------------------------------------- diff
p("Comparing a database with itself reports nothing",
  "compare_databases(db, db) returns two empty lists.",
  "every database",
  "reflexivity for all databases; fails only for particular foreign key shapes",
  [f"{D}:DDLCompare.compare_databases", f"{M}:ForeignKey.__eq__"])
p("Swapping the arguments swaps the reports",
  "compare_databases(db2, db1) returns the two lists of compare_databases(db1, db2) exchanged.",
  "every pair of databases",
  "symmetry for all pairs; every branch of five merge loops has to mirror",
  [f"{D}:DDLCompare.compare_databases"])
p("Table differences are exact",
  "The first list contains a table-dropped entry exactly for each table only in db1 and a table-created entry exactly for each table only in db2, each once; the second list the reverse; a table present in both yields neither.",
  "every pair of databases",
  "sorted-merge loops miss or duplicate elements only for particular interleavings of names",
  [f"{D}:DDLCompare.compare_databases"])
p("Column differences are exact",
  "For a table present in both databases the first list contains column-added / column-dropped / column-modified entries for exactly the columns only in the second / only in the first / in both with different types, each once, carrying the column as it has to become; the second list the reverse.",
  "every pair of databases, every common table",
  "as for tables, for all interleavings of column names",
  [f"{D}:DDLCompare._compare_columns"])
p("Key differences are exact",
  "For a common table, primary key, shard key, foreign key and relationship entries appear exactly when the two sides differ, and say drop / add with the other side's definition.",
  "every pair of databases, every common table",
  "quantifies over all key shapes; object identity of shard keys and asymmetric key equality make particular shapes wrong",
  [f"{D}:DDLCompare._compare_primary_keys", f"{D}:DDLCompare._compare_shard_keys", f"{D}:DDLCompare._compare_foreign_keys", f"{D}:DDLCompare._compare_relationships"])
p("Applying the reported differences makes the databases match",
  "Executing the changes of the first list, in order, on the first database yields the tables, columns, types, primary keys, shard keys, foreign keys and relationships of the second (column and table order aside), and symmetrically for the second list.",
  "every pair of databases",
  "end-to-end correctness of the diff for all pairs",
  [f"{D}:DDLCompare.compare_databases", f"{DD}:main"])
p("The printed ALTER script performs the differences",
  "The text write_alters prints, read back as TQL statements and executed one after the other on a server holding the first database, performs exactly the changes of the difference list.",
  "every difference list",
  "relates text to meaning for all names and shapes",
  [f"{D}:TQLAlterWriter.write_alters", f"{G}:TQLCommandGenerator"])
p("write_alters fails exactly on primary key additions and keeps what came before",
  "write_alters raises exactly when some difference adds a primary key or creates a table whose number of shards is a text; the output then holds exactly the statements of the differences before the first such entry.",
  "every difference list, every crash point in it",
  "all positions of the failing entry in all lists",
  [f"{D}:TQLAlterWriter.write_alters", f"{G}:generate_add_primary_key_statement"])
p("Alter scripts only use columns that exist when they are used",
  "When the alter script is executed in order, every primary key and foreign key it adds names columns that exist in the table at that moment.",
  "every pair of valid databases",
  "an ordering property of generated scripts",
  [f"{D}:DDLCompare._compare_tables"])
p("Two parses of the same DDL differ in nothing",
  "Parsing the same DDL twice and comparing the results reports no differences (what ddldiff prints for identical files).",
  "every DDL text",
  "depends on equality of every key object for all inputs",
  [f"{DD}:main", f"{D}:DDLCompare._compare_shard_keys", f"{M}:ShardKey", f"{M}:ForeignKey.__eq__"])
# ---------------------------------------------------------------- generator
p("Case options: precedence, exemption, idempotence",
  "Generated names are lower-cased if lowercase is set, else upper-cased if uppercase is set, else camel-cased if camelcase is set, else unchanged; the default schema name is never changed; lower- and upper-casing twice is the same as once.",
  "every name and option combination",
  "all strings",
  [f"{G}:TQLCommandGenerator.to_case"])
p("Camel case removes underscores and capitalises word starts",
  "to_camel maps w1_w2_..._wn (non-empty words without underscores, any number of leading and trailing underscores) to the concatenation of the capitalised words, is idempotent on such names, and raises exactly on names that consist of underscores only.",
  "every name",
  "all strings; consecutive underscores behave differently",
  [f"{G}:TQLCommandGenerator.to_camel"])
p("Script order: everything a statement refers to is created earlier",
  "In the text written by write_tql, read as TQL statements, all CREATE TABLE statements come before all foreign key statements, which come before all relationship statements, each CREATE TABLE comes right after the DROP of the same table, and for a database whose keys target existing tables each foreign key / relationship statement refers to tables created before it.",
  "every database and option combination",
  "ordering over arbitrary many tables and keys",
  [f"{IO}:TQLWriter.write_tql"])
p("Executing the written TQL recreates the database",
  "The text written by write_tql, read as TQL statements and executed on an empty server, creates exactly the database's tables with the same columns in the same order and types, primary key, shard key, foreign keys and relationships.",
  "every database whose names contain no double quote",
  "end-to-end meaning of generated text for all databases",
  [f"{IO}:TQLWriter.write_tql", f"{G}:generate_create_table_statement", f"{G}:generate_foreign_key_statement", f"{G}:generate_relationships"])
p("Key clauses of a CREATE TABLE name declared columns",
  "For a validated database, every column named in the PRIMARY KEY and PARTITION clauses of a generated CREATE TABLE statement is declared in that statement.",
  "every validated database and every case option",
  "consistency of two renderings of the same name under all options",
  [f"{G}:generate_create_table_statement"])
# ---------------------------------------------------------------- parser
p("Reading back written TQL gives the same database",
  "parse_ddl of the text written by write_tql returns a database with the same tables in the same order, the same columns in the same order, primary keys, shard keys, foreign keys and relationships; column types come back as their normal form (INT->BIGINT, FLOAT->DOUBLE, TIMESTAMP->DATETIME, VARCHAR..->VARCHAR(0)).",
  "every database with plain names in one schema",
  "writer and parser are developed separately; inverse for all inputs",
  [f"{IO}:TQLWriter.write_tql", f"{IO}:DDLParser.parse_ddl"])
p("Type normalisation settles after one more trip",
  "Write-then-parse applied to a database obtained by write-then-parse changes nothing: the second trip returns an equal database and the second text equals the third.",
  "every database with plain names in one schema",
  "fixpoint property for all inputs",
  [f"{IO}:DDLParser._convert_type", f"{IO}:TQLWriter.write_tql"])
p("Every converted type is a ThoughtSpot type",
  "Whatever text stands as a column type, type conversion either returns one of the ThoughtSpot column types, so that building the column cannot fail, or raises ValueError; it raises exactly for a NUMBER(...) whose argument list is malformed.",
  "every type text",
  "all strings",
  [f"{IO}:DDLParser._convert_type", f"{M}:Column.__init__"])
p("Type conversion ignores case and trailing text",
  "Type conversion gives the same answer for texts differing only in letter case, and ignores everything after the first closing parenthesis.",
  "every type text",
  "all strings",
  [f"{IO}:DDLParser._convert_type"])
p("Line comments do not matter",
  "Adding a '-- ...' comment to the end of any line (or as a line of its own) of a DDL file does not change the parsed database.",
  "every DDL file, every line, every comment text",
  "all files and positions; comment handling interacts with buffering across lines",
  [f"{IO}:DDLParser._get_statements"])
p("White space does not matter",
  "Extra blanks inside a run of blanks, leading and trailing blanks and tabs, and blank lines do not change the statements read from a DDL file.",
  "every DDL file",
  "all files and positions",
  [f"{IO}:DDLParser._clean_line", f"{IO}:DDLParser._get_statements"])
p("Every terminated statement is read, once, in order",
  "The statements read from a comment-free file are the texts between semicolons, in order, each once.",
  "every comment-free DDL file",
  "the buffer loop releases at most one statement per line, which only shows for particular layouts",
  [f"{IO}:DDLParser._get_statements"])
p("ALTER statements never abort a parse and touch only their table",
  "An ALTER TABLE statement, however malformed, never makes parse_ddl raise, never adds or removes tables or columns, and changes at most the primary key, the foreign keys or the relationships of one table, which it names.",
  "every statement text and every database state",
  "all malformed inputs",
  [f"{IO}:DDLParser.parse_ddl", f"{IO}:DDLParser._add_primary_key", f"{IO}:DDLParser._add_foreign_key", f"{IO}:DDLParser._add_generic_relationship"])
p("CREATE TABLE yields the declared columns in order",
  "For a CREATE TABLE statement whose parenthesised list consists of column declarations '<name> <type> [rest]' (names quoted with double quote, single quote or backquote, or plain), the table gets exactly these columns, in order, with the converted types, under the last component of the dotted table name.",
  "every such statement",
  "all lengths, names, quoting styles and types with parentheses and commas",
  [f"{IO}:DDLParser._parse_create_table", f"{IO}:DDLParser._add_columns", f"{IO}:DDLParser._get_table_name"])
p("Parsed databases are internally consistent",
  "Every database returned by parse_ddl carries the requested name, all its tables are in the requested schema and registered under their own names, all column types are valid, all foreign keys have as many from- as to-columns and start at the table they are stored on, likewise relationships.",
  "every DDL text",
  "an invariant of the whole parse over all inputs",
  [f"{IO}:DDLParser.parse_ddl"])
p("Missing input is reported, not parsed",
  "parse_ddl of a file that does not exist returns None and leaves the parser unchanged; without a file name it reads standard input.",
  "every file system state",
  "behaviour over all file states",
  [f"{IO}:DDLParser.parse_ddl", f"{IO}:DDLParser._get_statements"])
# ---------------------------------------------------------------- excel
p("Excel round trip",
  "Reading the workbook written for a database returns that database: tables, schemas, columns in order with types, primary keys, shard keys, foreign keys and relationships.",
  "every database whose names contain no commas, surrounding blanks or leading '='",
  "inverse for all databases",
  [f"{IO}:XLSWriter", f"{IO}:XLSReader"])
p("The reader finds columns by header, whatever their position",
  "Reordering the columns of a sheet (header and rows alike) or adding columns with other headers does not change the databases read.",
  "every workbook, every permutation and every added column",
  "all permutations and cell contents; README promises extra columns are ignored",
  [f"{IO}:XLSReader._get_column_indices"])
p("A workbook of the wrong shape yields nothing",
  "If a required sheet or a required column header is missing, read_xls returns no database; otherwise all four sheets are read.",
  "every workbook with at least a header row per sheet",
  "all combinations of missing sheets and headers",
  [f"{IO}:XLSReader._verify_file_format", f"{IO}:XLSReader.read_xls"])
p("DDL -> Excel -> TQL gives the same TQL as DDL -> TQL",
  "Writing TQL from the database read back from its Excel workbook produces the same text as writing TQL from the database directly.",
  "every database as for the Excel round trip, every option combination",
  "composition of three components over all databases (shard counts become floats on the way)",
  [f"{IO}:XLSWriter", f"{IO}:XLSReader", f"{IO}:TQLWriter.write_tql"])
p("Workbook rows go to the database and table they name",
  "Each row of the Tables sheet with a non-blank database creates a table in exactly that database; each row of the other sheets changes only the table it names in the database it names; rows naming an unknown database change nothing.",
  "every workbook",
  "all rows in all orders, several databases in one workbook",
  [f"{IO}:XLSReader._read_tables_from_workbook", f"{IO}:XLSReader._read_columns_from_workbook", f"{IO}:XLSReader._read_foreign_keys_from_workbook", f"{IO}:XLSReader._read_relationships_from_workbook"])
p("Rows naming an unknown table are reported and skipped",
  "A row of the Columns, Foreign Keys or Relationships sheet that names an unknown table is skipped without raising.",
  "every workbook",
  "all rows",
  [f"{IO}:XLSReader._read_relationships_from_workbook"])
# ---------------------------------------------------------------- config
p("Configuration round trip",
  "load_from_file of a file produced by write_to_file gives an equal configuration, for keys and values that are non-empty, on one line, without '#' and surrounding white space, keys without '='; values may contain '='. Two configurations are equal exactly if each setting of the one is one of the other with the same value.",
  "every such configuration",
  "inverse for all keys and values",
  [f"{U}:ConfigFile.write_to_file", f"{U}:ConfigFile.load_from_file", f"{U}:ConfigFile.__eq__"])
p("Configuration loading: last setting wins, comments and junk are ignored",
  "After load_from_file, get(k) is the value of the last line of the form k=v (comment stripped, both sides non-empty), or else the value before loading; comments, blank lines and malformed lines never change anything.",
  "every file text and previous configuration",
  "all files",
  [f"{U}:ConfigFile.load_from_file"])
p("A loaded configuration can be used by the reviews",
  "Running the reviews with a configuration file that sets the documented numeric settings does not raise.",
  "every configuration file setting a numeric key",
  "types of loaded values matter for every database with at least one path / shard row",
  [f"{RT}:review_long_chain_relationships", f"{RT}:review_sharding", "ddltools/review.cfg"])
# ---------------------------------------------------------------- reviews
p("Circular relationship review is exact and terminates",
  "For a database whose relationships target existing tables, review_circular_relationships terminates and reports exactly the tables from which a non-empty chain of foreign keys / relationships leads back to the table, each once.",
  "every database",
  "reachability over arbitrary graphs; termination for all graphs",
  [f"{RT}:review_circular_relationships"])
p("Circular relationship review fails exactly on dangling references",
  "review_circular_relationships raises KeyError exactly when some foreign key or relationship of the database targets a table that is not in the database.",
  "every database",
  "all graphs",
  [f"{RT}:review_circular_relationships"])
p("Long chain review lists exactly the long simple paths",
  "review_long_chain_relationships terminates and reports exactly the paths of pairwise distinct tables along foreign keys / relationships with more than max_reference_chain steps, each once, whatever order sets are iterated in.",
  "every database without dangling references, every limit, every set iteration order",
  "enumeration of all simple paths in all graphs",
  [f"{RT}:get_related_paths", f"{RT}:review_long_chain_relationships"])
p("Primary key review lists exactly the tables without primary key",
  "review_pks returns one recommendation per table with an empty primary key, in table order, naming database, schema and table, and none for others.",
  "every database",
  "all databases",
  [f"{RT}:review_pks"])
p("Sharding review applies the thresholds",
  "For each statistics row of the database: an unsharded table is reported exactly if it has more than max rows; a sharded one exactly if its rows per shard are below min (too little) or above max (too much), and additionally exactly if its skew ratio exceeds the limit; rows of other databases are ignored. The quotients are floating-point numbers; with whole numbers as limits, the default skew limit and fewer than 2^50 rows this is the same as exact quotients.",
  "every statistics result and thresholds",
  "all boundary combinations",
  [f"{RT}:review_sharding"])
p("Join review classifies cardinality",
  "For every foreign key and relationship, review_table_joins reports 'no data' exactly if one of the two cardinality queries gives no positive count, 1:M exactly if the to-count exceeds 1 and the from-count is 1, M:M exactly if both exceed 1, and nothing for M:1 and 1:1; queries failing in any way count as no data.",
  "every database without dangling references and every behaviour of the server",
  "all query outcomes",
  [f"{RT}:review_table_joins", f"{RT}:query_for_cardinality"])
p("Join conditions pair the key columns",
  "The join condition built for a foreign key is a balanced parenthesised conjunction that equates the i-th from-column of the from-table with the i-th to-column of the to-table, for every i and in order.",
  "every foreign key",
  "all key lengths",
  [f"{RT}:get_fk_join_parts"])
p("Worksheet join review recommends the join type the data need",
  "A worksheet join over a foreign key is reported exactly if its type differs from OUTER / RIGHT_OUTER / LEFT_OUTER / INNER as determined by which of the two missing-key queries returns rows.",
  "every worksheet and every behaviour of the server",
  "all outcomes",
  [f"{RT}:review_worksheet_joins"])
p("The reviewer runs exactly the applicable tests",
  "review_model calls exactly the review functions whose required inputs are available (and that are selected, if names are given), each once, and returns exactly their non-empty results.",
  "every set of review functions and every combination of inputs",
  "all combinations",
  [f"{RV}:DataModelReviewer.review_model"])
p("relates_to_previous decides reachability",
  "relates_to_previous answers whether the target can be reached from the start by one or more relationship steps, and terminates.",
  "every relationship map",
  "termination and correctness on all graphs, including cyclic ones",
  [f"{RT}:relates_to_previous"])
# ---------------------------------------------------------------- worksheet
p("Worksheets keep what is added, in order",
  "A Worksheet lists the tables, joins, paths, formulas and columns in the order added; get_table returns the first table of that name or None; column ids of the form path::source are split into path and source, formulas have neither.",
  "every sequence of additions",
  "all sequences",
  [f"{M}:Worksheet", f"{M}:WorksheetColumn.get_path", f"{M}:WorksheetColumn.get_source"])
p("YAML worksheets are read completely",
  "create_worksheet returns a worksheet with one table, join, path, formula and column per entry of the corresponding YAML list, in order and with the entry's values; missing formulas are fine.",
  "every YAML worksheet document",
  "all documents",
  [f"{IO}:YAMLWorksheetReader.create_worksheet"])
# ---------------------------------------------------------------- command line
p("Reading from a server leaves no temporary file and touches no other file",
  "read_from_ts leaves every file other than <database>.tmp unchanged and, if it returns, <database>.tmp does not exist afterwards.",
  "every file system state and every server answer, every point at which parsing may raise",
  "all states and crash points",
  [f"{CV}:read_from_ts", f"{RM}:read_from_ts"])
p("Argument checks admit exactly the documented combinations",
  "convert_ddl runs exactly if an input (or --version / --empty / --to_excel) is given and --from_ddl / --from_ts come with --database; ddldiff exactly if both files are given and exist; review_model exactly if (tests are only listed or a database name and a source are given) with at most one source and existing files.",
  "every argument combination",
  "all combinations of options and file states",
  [f"{CV}:valid_args", f"{DD}:valid_args", f"{RM}:valid_args"])
p("read_excel returns the first database or None",
  "convert_ddl's read_excel returns the first database of the workbook, and None exactly when there is none.",
  "every workbook",
  "all workbooks",
  [f"{CV}:read_excel"])
# ---------------------------------------------------------------- added while the model grew
p("Known types convert by name, NUMBER by precision and scale",
  "The usual types of the supported databases convert to their ThoughtSpot counterpart whatever letterless argument list follows; NUMBER(p,s) becomes DOUBLE unless s is 0, then BIGINT for more than nine digits and INT otherwise.",
  "every argument list, every precision and scale",
  "all numbers and argument texts",
  [f"{IO}:DDLParser._convert_type"])
p("Worksheet files are read unchanged",
  "YAMLWorksheetReader.read_from_file gives the YAML parser the text of the file.",
  "every file content",
  "all contents",
  [f"{IO}:YAMLWorksheetReader.read_from_file"])
p("convert_ddl changes only its outputs",
  "A run of convert_ddl changes no file except the one given by --to_tql, the workbook given by --to_excel (with the ending .xlsx), <database>.tmp when reading from a server, and <name of the database read>.tmp when writing to one; the input file stays as it is unless it is one of these.",
  "every argument combination, file system, server and permission",
  "all states and combinations",
  [f"{CV}:main", f"{CV}:write_tql", f"{CV}:write_excel", f"{CV}:write_to_ts"])
p("convert_ddl writes the database it read",
  "After a successful run the --to_tql file holds exactly the TQL of the database read under the chosen options, the --to_excel workbook its description; converting DDL to Excel and that to TQL in two runs leaves the same file as converting directly.",
  "every input file, option combination and file system",
  "all inputs and combinations",
  [f"{CV}:main", f"{CV}:read_ddl", f"{CV}:write_tql", f"{CV}:write_excel"])
p("A failing conversion leaves the outputs alone",
  "If convert_ddl cannot read a database, the files given as outputs are unchanged.",
  "every argument combination, file system and server",
  "all failure points",
  [f"{CV}:main", f"{IO}:smart_open"])
p("Writing to a server sends the script once and cleans up",
  "A successful run with --to_ts sends the server exactly one command, the TQL of the database read, and leaves no temporary file.",
  "every input, option combination and server",
  "all inputs and states",
  [f"{CV}:write_to_ts"])
p("ddldiff can ignore case",
  "With --ignore_case, two files that differ only in the case of names have no differences.",
  "every pair of files",
  "all pairs",
  [f"{DD}:main"])
p("review_model uses the configuration file",
  "The reviews run by review_model see the settings of the file given by --config_file.",
  "every configuration file",
  "all files",
  [f"{RM}:main"])
p("ddldiff finds no difference between a file and itself",
  "ddldiff with the same file twice lists no differences.",
  "every file",
  "all files",
  [f"{DD}:main"])
p("Block comments do not matter",
  "A DDL file reads the same with its block comments left out, whether they take one line or several.",
  "every file with block comments",
  "all placements of comments and all comment texts; the reader carries its state over lines",
  [f"{IO}:DDLParser._get_statements"])
p("Converting a converted file changes nothing",
  "Converting the TQL file that convert_ddl wrote with the same options leaves the same text, also over its own input.",
  "every DDL file, database name, schema and combination of case options",
  "composes two runs of the tool through the file system, over all files and options",
  [f"{CV}:main", f"{IO}:DDLParser.parse_ddl", f"{IO}:TQLWriter.write_tql"])
p("ddldiff finds no difference between a file and its conversion",
  "ddldiff of a DDL file and the TQL file convert_ddl made of it, under the same database name and schema, lists no differences.",
  "every DDL file",
  "composes both tools through the file system, over all files",
  [f"{CV}:main", f"{DD}:main"])
p("ALTER TABLE statements are read as written",
  "An ALTER TABLE statement in a documented form adds to the table it names exactly the primary key, foreign keys or relationship it spells out, and changes nothing else.",
  "every statement of the three documented forms, with keywords in any letter case, names bare, quoted or bracketed, with or without a path, named and unnamed keys, several constraints",
  "names, columns and conditions are unbounded; the patterns are greedy and backtrack",
  [f"{IO}:DDLParser._add_primary_key", f"{IO}:DDLParser._add_foreign_key", f"{IO}:DDLParser._add_generic_relationship"])
p("The counts in the sheet Tables are right",
  "In the workbook written for a database the formulas in the row of a table show the number of its columns and the numbers of foreign keys and relationships that start and end at it, under the headers that say so; together they are the numbers the database itself reports.",
  "every database, every table in it, every spreadsheet program that compares names as texts",
  "the number of tables, columns and keys is unbounded; the formulas are texts with row numbers",
  [f"{IO}:XLSWriter._write_tables_worksheet", f"{IO}:XLSWriter._write_foreign_keys_worksheet", f"{IO}:XLSWriter._write_relationships_worksheet", f"{IO}:XLSWriter._write_columns_worksheet"])
p("ddldiff prints scripts that migrate",
  "ddldiff --alter1 prints a comment line and a script that turns the schema of the first file into that of the second; --alter2 one for the other direction; with both options both are printed, in this order. It raises exactly if a primary key has to be added.",
  "every two DDL files, every combination of the options, every server holding the schema of the one file",
  "the files are unbounded texts; the scripts are executed on a catalogue",
  [f"{DD}:main", f"{D}:TQLAlterWriter.write_alters", f"{D}:DDLCompare.compare_databases"])
p("The parser says what it leaves out",
  "If the parser prints no message about a DDL file, every ALTER TABLE statement in it was carried out; if it prints one about a statement, something of that statement was left out. A missing file is reported.",
  "every DDL file and statement",
  "statements are unbounded texts; the messages follow from which of several patterns match",
  [f"{IO}:DDLParser._add_primary_key", f"{IO}:DDLParser._add_foreign_key", f"{IO}:DDLParser._add_generic_relationship", f"{IO}:DDLParser._add_shard_key", f"{IO}:DDLParser._parse_create_table"])
p("ddldiff lists the differences",
  "Without --alter1 and --alter2 ddldiff prints a list for each file. The line for a table and a kind of change is in the first list exactly if the first schema has to change in this way to become the second, as often as there are such changes, and in the second list the other way round. Nothing else is printed.",
  "every two DDL files",
  "the files are unbounded texts; the lists come from a merge of two sorted lists",
  [f"{DD}:main", f"{D}:DDLCompare.compare_databases", f"{D}:ColumnAddedDifference"])
p("CREATE TABLE statements with keys are read as declared",
  "A CREATE TABLE statement with columns, primary keys, other keys and a PARTITION BY HASH clause adds the table with exactly these columns in order, the primary key given last, and the shard key of the clause.",
  "every statement of this form, with keywords in any letter case, names bare, quoted or bracketed, any white space in the list",
  "the list is unbounded; the parser cuts it at commas outside parentheses and searches the rest with a greedy pattern",
  [f"{IO}:DDLParser._parse_create_table", f"{IO}:DDLParser._add_columns", f"{IO}:DDLParser._add_hashkey"])
p("A DDL file is read as the database it describes",
  "From a file of CREATE TABLE and ALTER TABLE statements parse_ddl returns the database they describe: the tables in the order of their creation, each with its columns and keys and with the changes that come after it, and nothing else. Nothing is reported if every table is created before it is altered.",
  "every file of such statements, of any number and length, spread over lines in any way with at most one semicolon in each, with comments at the ends of lines and on lines of their own",
  "files are unbounded; splitting into statements, comments, the two kinds of statements and the dictionary of tables have to work together",
  [f"{IO}:DDLParser.parse_ddl", f"{IO}:DDLParser._get_statements", f"{IO}:DDLParser._parse_create_table", f"{IO}:DDLParser._add_foreign_key"])
p("The workbook reader says what it leaves out",
  "The messages printed while a workbook is read name exactly the missing sheets and headers, or else exactly the rows that cannot be used, in order: rows about an unknown database or table and tables with only half a shard key. No message is a false alarm, also if reading fails. If there is no message, no row is lost.",
  "every workbook",
  "workbooks are unbounded; which rows are known depends on all rows of another sheet",
  [f"{IO}:XLSReader._verify_file_format", f"{IO}:XLSReader._read_tables_from_workbook", f"{IO}:XLSReader._read_columns_from_workbook", f"{IO}:XLSReader._read_foreign_keys_from_workbook", f"{IO}:XLSReader._read_relationships_from_workbook"])

p("From a DDL file to the tables on the server",
  "convert_ddl --from_ddl --to_tql on a file of CREATE TABLE and ALTER TABLE statements ends without an exception, with or without --validate, changes only the target file, and leaves there a script that, executed on a server, makes exactly the tables the DDL file describes: a new database with --create_db, or else the tables of a database that exists, the others staying as they are. With --to_ts that script is what is sent. ddldiff with --alter1 or --alter2 prints scripts that turn the tables the one file describes into those the other describes.",
  "every file of such statements, every server state, every file system",
  "files and servers are unbounded; reading, checking and writing have to work together",
  ["ddltools/convert_ddl.py:main", f"{DD}:main", f"{IO}:DDLParser.parse_ddl", f"{IO}:TQLWriter.write_tql"])

p("convert_ddl says what it does",
  "convert_ddl announces each step it was asked for, in order, before taking it; if it stops with an exception, the step announced last is the one that failed. With --validate it says that the database is valid exactly if it is well-formed and otherwise prints one line for each defect. Reading a workbook it says if there is no database, and which one is used if there are several. With --to_tql - it prints the script that would be left in a file. Wrong arguments are met with a line that says what is missing. Printing changes nothing in what is done.",
  "all arguments, files, workbooks and server answers",
  "files and workbooks are unbounded; the lines depend on the whole database",
  [f"{CV}:main", f"{CV}:valid_args", f"{CV}:read_excel", "dt/model.py:ValidationResult.eprint_issues", f"{IO}:smart_open"])

p("No line of a configuration file is dropped silently",
  "Loading a configuration file prints one message, in order, for exactly the lines with text that set nothing, naming the file and quoting the text of the line without its comment; the message tells a missing equal sign from a missing name or value. A file that cannot be read or written is named in one message.",
  "every file, every previous configuration",
  "files are unbounded; comments, white space and further equal signs have to be told apart",
  ["dt/util.py:ConfigFile.load_from_file", "dt/util.py:ConfigFile.write_to_file"])

p("The reviews say what they ask and what they leave out",
  "The review of the joins of tables prints every query before it asks it and shows an error exactly after the queries that were not answered with a number. The review of a worksheet says for each join its two queries, or why the join is not checked. The reviewer names each review it skips, with its parameters, and calls all others in order up to the first that raises; each begins by naming the database it reviews. Printing changes nothing in what is reported.",
  "every database, worksheet and server (any answers, also errors)",
  "databases, worksheets and answers are unbounded",
  ["dt/review/review_tests.py:review_table_joins", "dt/review/review_tests.py:query_for_cardinality", "dt/review/review_tests.py:review_worksheet_joins", "dt/review/review.py:DataModelReviewer.review_model"])

p("review_model says what it does and finds",
  "review_model answers wrong arguments with one line for each mistake, in order, and does nothing. --show_tests lists each review once with its parameters and its description. A run that ends with results prints exactly these, by review. On a DDL file without a server it names the reviews it does and those it skips, and shows exactly the tables that lead back to themselves, the paths of more than three steps, and the tables without primary key; if a key leads to no table it ends with KeyError after the first announcement. Printing changes nothing in what is done.",
  "all arguments, files and databases",
  "files and databases are unbounded; the lines depend on all paths of the database",
  [f"{RM}:main", f"{RM}:valid_args", "dt/review/review.py:DataModelReviewer.get_test_descriptions", "dt/review/review.py:DataModelReviewer.review_model"])

p("ddldiff says what it does",
  "What ddldiff prints to the standard output is exactly the scripts and lists of differences of its run, also if it ends with an exception. Wrong arguments are met with one line that says a file was not given, or with one line for each file that does not exist. What the parser says about the first file comes before everything about the second, which is not read if the first cannot be.",
  "all arguments and files",
  "files are unbounded; the text depends on both databases",
  [f"{DD}:main", f"{DD}:valid_args"])

p("A server that checks references accepts the scripts of valid databases",
  "Executed on a server that refuses key clauses with undeclared columns, shard keys outside the primary key, foreign keys that do not lead to the primary key of an existing table column by column with matching types, and relationships to missing tables, the script write_tql makes of a valid database is accepted statement by statement, under every case option and with or without create_db, and leaves the tables of the database as printed.",
  "all databases, case options and server contents",
  "databases and servers are unbounded; each statement has to be in order in the state left by all statements before it",
  [f"{IO}:TQLWriter.write_tql", "dt/generator.py:TQLCommandGenerator.generate_create_table_statement", "dt/generator.py:TQLCommandGenerator.generate_foreign_key_statement", "dt/generator.py:TQLCommandGenerator.generate_relationships", "dt/model.py:DatabaseValidator.validate"])

p("A server that checks references accepts ddldiff's scripts for valid databases",
  "Executed on a server holding the first database that refuses statements referring to columns, primary keys or tables that do not exist at that moment, the ALTER statements ddldiff prints for two valid databases are accepted one by one; likewise for the other direction.",
  "all pairs of databases and all server contents outside them",
  "databases are unbounded; whether an entry is in order depends on everything the entries before it did to other tables",
  [f"{D}:DDLCompare.compare_databases", "ddltools/ddldiff.py:main"])

p("What the parser prints about a statement is true and points to it",
  "Every line the parser writes to the standard error stream while it reads a file is about one statement of that file and true when that statement's turn comes: a statement from which nothing could be extracted does not have the documented form, a table called unknown is not in the database, and the reason given for a failure (no table name, numbers of columns that differ, a shard count that is no number) is the actual one. The line contains the statement or the name of the unknown table, and different messages are different lines.",
  "every DDL file",
  "statements are unbounded texts; what is printed depends on which of several backtracking patterns match",
  ["dt/io.py:DDLParser._add_primary_key", "dt/io.py:DDLParser._add_foreign_key", "dt/io.py:DDLParser._add_generic_relationship", "dt/io.py:DDLParser._add_hashkey", "dt/model.py:ForeignKey.__init__"])

p("Command lines are read as the options are declared",
  "The three programs have the documented options and no others. A command line is accepted exactly if it can be read as a sequence of flags, options with a value (apart, joined with an equals sign, or attached to a short name), joined short flags and unambiguous abbreviations; of repeated options the last one counts, and what is not set has the documented default. Every combination of arguments can be given, in any order. A command line that cannot be read changes nothing and is refused with status 2. The sample commands of the README are accepted.",
  "every list of command line arguments",
  "command lines are unbounded; whether a word is an option, an abbreviation, a value or a cluster of flags depends on all declared names and on the words before it",
  [f"{CV}:parse_args", f"{DD}:parse_args", f"{RM}:get_parser"])

p("Passwords are not shown",
  "The password given to convert_ddl or review_model is not printed on the standard output.",
  "every command line, server and file",
  "the output depends on everything the run reads",
  [f"{CV}:main", f"{RM}:main"])

p("A script on the standard output is a script",
  "If convert_ddl writes its script to the standard output (--to_tql -), or ddldiff prints its ALTER statements, then the standard output of the run can be read as a script with exactly these statements.",
  "every command line, server and file",
  "the output depends on everything the run reads",
  [f"{CV}:main", f"{DD}:main", f"{IO}:smart_open"])

p("The exit status tells whether a run succeeded",
  "The exit status of the three programs is 0 exactly if the run did what it was asked to: it is not 0 if the command line is refused, the arguments are insufficient, a file does not exist, the database is invalid, or an exception is raised.",
  "every command line, server and file",
  "the outcome depends on everything the run reads",
  [f"{CV}:main", f"{DD}:main", f"{RM}:main"])

p("A file that cannot be decoded is not used in part",
  "If a DDL file has bytes that cannot be decoded, a message says so, and the programs neither convert, compare nor review the part of the file before these bytes.",
  "every file, command line, server and disk",
  "the part that is read depends on how Python buffers the file; the outputs depend on everything else",
  [f"{IO}:DDLParser._get_statements", f"{CV}:main", f"{DD}:main", f"{RM}:main"])

p("Which names a DDL file can give",
  "A file gives a list of statements exactly if each is one line without semicolons, tabs and runs of blanks, and without white space around it. For every kind of name (tables, columns, keys, "
  "foreign keys, relationships) and for the conditions of relationships there is an explicit set of texts: every database read from a file has only texts of these sets, and each of these texts is given by some file. So a database with another name comes back from no file.",
  "every file, parser and name",
  "files and names of any length; the parser uses splitting, slicing and greedy patterns on the text",
  [f"{IO}:DDLParser._get_statements", f"{IO}:DDLParser._parse_create_table", f"{IO}:DDLParser._add_columns", f"{IO}:DDLParser._add_foreign_key", f"{IO}:DDLParser._add_generic_relationship"])

p("The primary key of a table is the one set last",
  "After any calls of set_primary_key the primary key is that of the last call that was accepted, or the one from before; a call with None or with something that is neither a text nor a list raises and leaves the table unchanged.",
  "every table and sequence of calls",
  "sequences of any length",
  [f"{M}:Table.set_primary_key"])

p("Mistakes are reported on the error stream",
  "The standard error stream of a run of convert_ddl has the messages of the reader of the database, then, with --validate, one line for each defect of the database if it is not valid, and nothing else, "
  "whatever is written where. It is empty exactly if the reader has nothing to report and the database, if validated, is valid. ddldiff and review_model with files have there the messages of the parser and nothing else. Insufficient arguments are reported there, and the standard output is then empty or has the help.",
  "every command line, file, server and disk",
  "the messages depend on everything the run reads",
  [f"{CV}:main", f"{DD}:main", f"{RM}:main", f"{U}:eprint"])

p("Only a broken CREATE TABLE ends the reading of a DDL file",
  "parse_ddl raises on a text file exactly if one of the statements creates a table whose list has an empty field, except after a comma at the end (IndexError), or a column of a NUMBER type with malformed arguments (ValueError). "
  "The first such statement gives the exception; the parser is left with the tables of the statements before. convert_ddl then ends with the exception and changes no file, ddldiff compares nothing.",
  "every text file, parser, command line and disk",
  "files of any length; the fields are found by splitting and slicing on the text",
  [f"{IO}:DDLParser.parse_ddl", f"{IO}:DDLParser._add_columns", f"{IO}:DDLParser._convert_type", f"{CV}:main", f"{DD}:main"])
p("The statements of every DDL file",
  "Which statements are read from a text file is a function of its text: lines end with LF, CR or both; of a line counts what is before two dashes, outside a block comment that started on an earlier line, "
  "and outside the first comment that starts on the line; lines that begin with GO count for nothing. The statements are the texts before the semicolons, tidied up, in order, without the last k, "
  "where k is the largest excess of semicolons over lines at an end of the file (at most one statement is taken per line).",
  "every text file",
  "files of any length; the reader keeps a buffer and a comment flag over all lines and releases one statement per line",
  [f"{IO}:DDLParser._get_statements", f"{IO}:DDLParser._clean_line", f"{IO}:DDLParser.parse_ddl"])
p("What is made of every statement and every file",
  "What a statement does to the database is a function of its text alone: a CREATE TABLE files exactly one table, with the name, columns, types, primary key and shard key that its text gives, in the place of one with the same name; "
  "an ALTER TABLE changes at most one table, giving it the primary key, the foreign keys up to the first constraint that cannot be used, or the relationship that its text gives; every other statement does nothing. "
  "The database read from a file is what its statements, one after the other, make of an empty one, up to the first that raises.",
  "every statement, text file, schema and parser",
  "texts of any length; the parser uses nested splitting, slicing and greedy patterns with backtracking",
  [f"{IO}:DDLParser.parse_ddl", f"{IO}:DDLParser._parse_create_table", f"{IO}:DDLParser._add_columns", f"{IO}:DDLParser._convert_type", f"{IO}:DDLParser._add_primary_key", f"{IO}:DDLParser._add_foreign_key", f"{IO}:DDLParser._add_generic_relationship"])
p("What the parser says about every statement and every file",
  "Which messages a statement causes is a function of its text and of the tables there are: for every statement that can be read the messages are those of the form it fails to have, the name it lacks, the number that is none, "
  "the lists of different lengths or the table that is not there, with Python's own reasons; constraints are reported one after the other up to the first that is misshapen. "
  "The messages of a file are those of its statements in order, up to the first that raises. Exactly when nothing is said about an ALTER TABLE is a function of its text and of the tables.",
  "every statement, text file, partly decodable file, schema and parser",
  "texts of any length; the messages depend on the whole history of the database being built",
  [f"{IO}:DDLParser.parse_ddl", f"{IO}:DDLParser._add_primary_key", f"{IO}:DDLParser._add_foreign_key", f"{IO}:DDLParser._add_generic_relationship", f"{IO}:DDLParser._add_shard_key"])
p("What is made of every workbook",
  "What is read from a workbook is a function of what its four sheets say: a sheet without a header row ends in an IndexError; without one of the sheets or headers nothing is read; otherwise the rows of Tables, Columns, Foreign Keys "
  "and Relationships are read in this order, and the first row that cannot be used - a number where a text is needed, a type that is none, lists of columns of different lengths, a relationship of an unknown table in a known database - "
  "ends the reading with its exception; if there is no such row, the databases are exactly those the rows describe, including the counts of rows per schema.",
  "every workbook",
  "sheets of any size with texts and numbers in any cell; rows refer to rows of other sheets",
  [f"{IO}:XLSReader.read_xls", f"{IO}:XLSReader._verify_file_format", f"{IO}:XLSReader._get_column_indices", f"{IO}:XLSReader._read_databases_from_workbook", f"{IO}:XLSReader._read_tables_from_workbook", f"{IO}:XLSReader._read_columns_from_workbook", f"{IO}:XLSReader._read_foreign_keys_from_workbook", f"{IO}:XLSReader._read_relationships_from_workbook", f"{M}:Database.add_table"])
p("What the workbook reader says about every workbook",
  "Which messages a workbook causes is a function of what its four sheets say, also if its reading ends in an exception: what is missing of the needed sheets, up to the first without a header row; if nothing is missing, "
  "for each table with a shard key but no number of shards or the reverse one message, and for each later row that names an unknown database or an unknown table one message, in the order of the sheets and rows, "
  "up to and including the first row that cannot be used.",
  "every workbook in which no number is used as the name of a database or table",
  "sheets of any size with texts and numbers in any cell; whether a row is reported depends on the rows of another sheet",
  [f"{IO}:XLSReader.read_xls", f"{IO}:XLSReader._verify_file_format", f"{IO}:XLSReader._read_tables_from_workbook", f"{IO}:XLSReader._read_columns_from_workbook", f"{IO}:XLSReader._read_foreign_keys_from_workbook", f"{IO}:XLSReader._read_relationships_from_workbook"])

p("What is wrong with a document that is no worksheet is what is raised",
  "create_worksheet raises an exception exactly if something is wrong with the document, and the first thing that is wrong, in the order head, tables, joins, table paths, formulas, columns, says which: KeyError for a missing value, "
  "TypeError for a value without keys or entries where they are needed, AttributeError for a path step or column properties that are no mapping, AssertionError for an empty name or an unknown table type, ValueError for properties that are not made of pairs. Every document either describes one worksheet or has one such exception.",
  "every YAML document",
  "documents of any shape and size, any value in any place; the entries before the first wrong one must be in order",
  [f"{IO}:YAMLWorksheetReader.create_worksheet"])

p("A configuration holds what was last put into it",
  "After any sequence of settings (cfg[key] = value) and loaded files on a new ConfigFile, a name has the value it was set to last, by a setting or by a line of a file; indexing gives None and get gives the default for a name that was never set; "
  "len is the number of different names; and two configurations are equal exactly if the same names were set, last to equal values.",
  "every sequence of calls on a ConfigFile",
  "settings and loads in any order and number; files of any content, missing, unreadable or decodable only in part; values are integers, floats and texts",
  ["dt/util.py:ConfigFile.__setitem__", "dt/util.py:ConfigFile.__getitem__", "dt/util.py:ConfigFile.__len__", "dt/util.py:ConfigFile.get", "dt/util.py:ConfigFile.__eq__", "dt/util.py:ConfigFile.load_from_file"])

p("A validation result is valid exactly as long as nothing was added",
  "After any sequence of add_issue, add_error, add_warning and add_info on a new ValidationResult, the issues are those added, in order and with the level of the call (ERROR for add_issue without a level); is_valid holds exactly if there was no call at all, "
  "so that an information makes a result invalid as well; and eprint_issues prints one line per issue, made of the word of the level, a colon, two blanks and the text.",
  "every sequence of calls on a ValidationResult",
  "any number of calls in any order, any texts",
  [f"{M}:ValidationResult.add_issue", f"{M}:ValidationResult.add_error", f"{M}:ValidationResult.add_warning", f"{M}:ValidationResult.add_info", f"{M}:ValidationResult.eprint_issues"])

p("Every loaded configuration can be saved",
  "A configuration that was made by loading files, any number of them and whatever is in them, is the same, in the same order, after it was written to a file and loaded into a new ConfigFile. After any calls, settings made by code included, "
  "what comes back is equal to the configuration exactly if every name was last set to a text and neither has a line end, a comment sign or white space at its ends, nor the name an equal sign.",
  "every sequence of calls on a ConfigFile, then write_to_file and load_from_file",
  "files of any content, any texts as names and values, numbers as values",
  [f"{U}:ConfigFile.load_from_file", f"{U}:ConfigFile.write_to_file", f"{U}:ConfigFile.__setitem__", f"{U}:ConfigFile.__eq__"])

p("What keeps a valid database valid",
  "After drop_table on a database that validate accepts, the database is accepted exactly if no other table has a foreign key or a relationship to the dropped one. After add_table of a table with a new name it is accepted exactly if the new table is in order: "
  "known types, existing columns in its keys, shard key within the primary key, foreign keys that fit the primary key they point to, relationships from this table to existing ones; if it takes the place of a table with its name, the foreign keys of the other tables to that name must also fit the new one. The order in which tables were added does not matter.",
  "every database and table built through the API",
  "any number of tables, keys and relationships; references may go round in circles and to the table itself",
  [f"{M}:Database.validate", f"{M}:Database.drop_table", f"{M}:Database.add_table", f"{M}:DatabaseValidator.validate"])

p("The reviews of a valid database with columns in its tables end with a report",
  "If validate accepts a database and each of its tables has a column, then the review of circular relationships lists exactly the tables from which references lead back to them, the review of long chains ends with a report if the limit is unset or a number, "
  "and the review of joins ends with the report on all joins, whatever the server answers. None of them raises. Tables without columns are valid too, but then the review of joins can raise IndexError.",
  "every database built through the API that validate accepts; every order of sets; every server",
  "any number of tables, circles of references, keys of several columns, servers that answer anything",
  [f"{RT}:review_circular_relationships", f"{RT}:review_long_chain_relationships", f"{RT}:review_table_joins", f"{M}:Database.validate"])

p("The order in which things were added does not change a comparison",
  "compare_databases gives the same differences in the same order whatever the order of the tables in the two databases; and for two tables present on both sides the ALTER statements written are the same, in the same order, whatever the order of their columns, foreign keys and relationships; so both scripts are the same text if the tables missing on one side list their columns as before. "
  "(A CREATE TABLE statement for a table missing on one side does list the columns as they stand.)",
  "every two databases and tables, every reordering",
  "all databases and all permutations",
  [f"{D}:DDLCompare.compare_databases", f"{D}:TQLAlterWriter.write_alters"])

# further functions of the code that the properties above are about
MORE = {
    "C01": [f"{M}:Table.{x}" for x in ("add_columns", "has_column", "get_column", "number_columns")],
    "C02": [f"{M}:Database.{x}" for x in ("__init__", "get_table_names", "number_tables", "__iter__")],
    "C05": [f"{M}:Table.{x}" for x in ("get_foreign_key", "foreign_keys_iter", "get_relationship", "relationships_iter")],
    "C08": [f"{M}:Database.validate"] + [f"{M}:DatabaseValidator.{x}" for x in
            ("_validate_column_types", "_validate_primary_key", "_validate_shard_keys", "_validate_relationships")],
    "C16": [f"{M}:GenericRelationship.__eq__"],
    "C18": [f"{D}:{x}Difference.get_alter" for x in
            ("TableCreated", "TableDropped", "PrimaryKeyAdded", "PrimaryKeyDropped", "ShardKeyAdded", "ShardKeyDropped", "ForeignKeyAdded", "ForeignKeyDropped",
             "GenericRelationshipAdded", "GenericRelationshipDropped", "ColumnDropped", "ColumnModified")],
    "C25": [f"{IO}:TQLWriter.{x}" for x in ("write_create_table_statement", "write_foreign_keys", "write_relationships")] + [f"{G}:list_to_string"],
    "C33": [f"{IO}:DDLParser._should_ignore_line"],
    "C35": [f"{IO}:DDLParser.{x}" for x in ("_strip_quotes", "_clean_name")],
    "C47": [f"{M}:Table.get_all_related_tables"],
    "C49": [f"{RT}:get_relationships"],
    "C51": [f"{M}:Table.get_number_shards"],
    "C52": [f"{RT}:{x}" for x in ("get_to_table_cardinality_query", "get_from_table_cardinality_query")],
    "C53": [f"{RT}:get_rel_join_parts"],
    "C57": [f"{M}:WorksheetColumn.get_property"],
    "C78": [f"{D}:DatabaseDifference.__repr__"],
    "C86": [f"{RT}:review_relationships"],
    "C101": [f"{IO}:DDLParser.{x}" for x in ("_extract_table_name", "_extract_name", "_get_matches")],
    "C105": [f"{M}:{x}.__init__" for x in ("WorksheetTable", "WorksheetJoin", "WorksheetTablePath", "WorksheetFormula", "WorksheetColumn")],
}
for x in P:
    x["anchors"] += [a for a in MORE.get(x["id"], []) if a not in x["anchors"]]

if __name__ == "__main__":
    with open("properties.jsonl", "w") as f:
        for x in P:
            f.write(json.dumps(x) + "\n")
    print(len(P))
