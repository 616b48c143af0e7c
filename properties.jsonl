{"id": "C01", "title": "A table's columns are an insertion-ordered map", "statement": "After any sequence of add_column / add_columns / drop_column calls on a Table, a column is present exactly when the last call naming it was an add, it carries the definition of that last add, it is listed once, and iteration / get_column_names list the present columns in the order in which they were (re)born, i.e. first added since their last drop. has_column, get_column and number_columns agree with that listing, and drop_column returns exactly the column that was present.", "quantifier": "every finite history of add/drop calls, every column name and definition", "why_tests_cant": "the claim is about all call histories; re-adding an existing name keeps the old position while drop+add moves it, so only an invariant over histories settles order", "anchors": ["dt/model.py:Table.add_column", "dt/model.py:Table.drop_column", "dt/model.py:Table.get_column_names", "dt/model.py:Table.__iter__", "dt/model.py:Table.add_columns", "dt/model.py:Table.has_column", "dt/model.py:Table.get_column", "dt/model.py:Table.number_columns"]}
{"id": "C02", "title": "A database's tables are an insertion-ordered map", "statement": "After any sequence of add_table / drop_table calls, get_table(n) returns the last table added under the name n unless n was dropped since, number_tables and get_table_names count each present name once, iteration yields the present tables in birth order, and drop_table returns the table that was present (or None) and removes nothing else.", "quantifier": "every finite history of add_table / drop_table calls", "why_tests_cant": "quantifies over all histories, including overwrites and drops of absent names", "anchors": ["dt/model.py:Database.add_table", "dt/model.py:Database.drop_table", "dt/model.py:Database.get_table", "dt/model.py:Database.__init__", "dt/model.py:Database.get_table_names", "dt/model.py:Database.number_tables", "dt/model.py:Database.__iter__"]}
{"id": "C03", "title": "Schema listing tracks the tables", "statement": "After any history, get_schema_names lists every schema that some present table belongs to, never lists a schema twice, and, if no add_table replaced a table already present under the same name, lists no other schema. (With a replacement the listing can keep a schema no table is in.)", "quantifier": "every finite history of add_table / drop_table calls", "why_tests_cant": "reference counting bugs show only on particular histories (overwrite then drop); a test samples a few", "anchors": ["dt/model.py:Database.add_table", "dt/model.py:Database.drop_table", "dt/model.py:Database.get_schema_names"]}
{"id": "C04", "title": "drop_table never fails", "statement": "drop_table never raises, whatever add_table / drop_table calls came before: the schema counter it looks up is always there and positive.", "quantifier": "every finite history followed by a drop of any name", "why_tests_cant": "the KeyError would need a history in which the counter under-counts; absence of such a history is universal", "anchors": ["dt/model.py:Database.drop_table"]}
{"id": "C05", "title": "Foreign keys and relationships are registered by name, defaults collide", "statement": "add_foreign_key / add_relationship keep exactly the last definition given for each name, in order of first use of the name. Without a name the name is FK_<from>_to_<to> (REL_<from>_to_<to>), so among unnamed foreign keys of one table exactly the last one per target table survives.", "quantifier": "every finite list of foreign keys / relationships added to a table", "why_tests_cant": "silent loss depends on combinations of targets and names across the whole list", "anchors": ["dt/model.py:Table.add_foreign_key", "dt/model.py:Table.add_relationship", "dt/model.py:ForeignKey.__init__", "dt/model.py:GenericRelationship.__init__", "dt/model.py:Table.get_foreign_key", "dt/model.py:Table.foreign_keys_iter", "dt/model.py:Table.get_relationship", "dt/model.py:Table.relationships_iter"]}
{"id": "C06", "title": "Constructors only build well-formed columns and keys", "statement": "Column(...) succeeds exactly for a non-None name and a type that is one of the ThoughtSpot types or begins with VARCHAR; ForeignKey(...) succeeds exactly for non-None arguments with as many from-columns as to-columns; Table(...) succeeds exactly for a non-None name and schema; scalars and one-element lists build the same object; the object holds exactly the values given.", "quantifier": "every argument combination", "why_tests_cant": "the accepted set is infinite (any VARCHAR... text, any key length)", "anchors": ["dt/model.py:Column.__init__", "dt/model.py:ForeignKey.__init__", "dt/model.py:ShardKey.__init__", "dt/model.py:Table.__init__", "dt/model.py:Table.get_shard_key_columns", "dt/model.py:Table.set_primary_key"]}
{"id": "C07", "title": "Relationship counts balance", "statement": "The sum over all tables of get_number_relationships_from_table equals the sum over all tables of get_number_relationships_to_table plus the number of foreign keys / relationships whose target table is not in the database; both functions raise ValueError exactly for a table name not in the database.", "quantifier": "every database", "why_tests_cant": "a double-counting identity over arbitrary sized databases", "anchors": ["dt/model.py:Database.get_number_relationships_from_table", "dt/model.py:Database.get_number_relationships_to_table"]}
{"id": "C08", "title": "The validator's verdict is exactly the documented well-formedness", "statement": "validate() reports a valid database if and only if no column has type UNKNOWN, every primary key column exists, every shard key column exists and (if there is a primary key) belongs to it, every foreign key targets an existing table with as many columns as that table's primary key, each target column lies in that primary key and exists, each source column exists, paired columns have equal types or are both VARCHAR, and every relationship starts at the table it is stored on and targets an existing table.", "quantifier": "every database", "why_tests_cant": "an if-and-only-if over all databases: tests can only sample the no-false-positive side", "anchors": ["dt/model.py:DatabaseValidator.validate", "dt/model.py:DatabaseValidator._validate_foreign_keys", "dt/model.py:Database.validate", "dt/model.py:DatabaseValidator._validate_column_types", "dt/model.py:DatabaseValidator._validate_primary_key", "dt/model.py:DatabaseValidator._validate_shard_keys", "dt/model.py:DatabaseValidator._validate_relationships"]}
{"id": "C09", "title": "Validation reports every defect, at its table, and never stops early", "statement": "Each defective column, primary key column, shard key column, foreign key and relationship contributes an issue whose text names the database and the table it belongs to; UNKNOWN types are warnings, all others errors; is_valid is False exactly when there is an issue (of any level); validating the same database twice gives the same issues.", "quantifier": "every database, every defect in it", "why_tests_cant": "completeness of reporting for arbitrary combinations of defects", "anchors": ["dt/model.py:DatabaseValidator._add_validation_issue", "dt/model.py:ValidationResult.add_issue"]}
{"id": "C10", "title": "In a validated database a foreign key covers the target's primary key", "statement": "If validate() accepts, then every foreign key's to-columns are exactly the primary key columns of the target table (each once).", "quantifier": "every database accepted by the validator", "why_tests_cant": "a semantic consequence of acceptance; the accepted set is infinite", "anchors": ["dt/model.py:DatabaseValidator._validate_foreign_keys"]}
{"id": "C11", "title": "Validation never raises on databases built through the API", "statement": "For every database whose foreign keys were built by the ForeignKey constructor, validate() returns a result and does not raise.", "quantifier": "every database built with the API", "why_tests_cant": "absence of exceptions for all inputs", "anchors": ["dt/model.py:DatabaseValidator.validate"]}
{"id": "C12", "title": "Comparing a database with itself reports nothing", "statement": "compare_databases(db, db) returns two empty lists.", "quantifier": "every database", "why_tests_cant": "reflexivity for all databases; fails only for particular foreign key shapes", "anchors": ["dt/diff.py:DDLCompare.compare_databases", "dt/model.py:ForeignKey.__eq__"]}
{"id": "C13", "title": "Swapping the arguments swaps the reports", "statement": "compare_databases(db2, db1) returns the two lists of compare_databases(db1, db2) exchanged.", "quantifier": "every pair of databases", "why_tests_cant": "symmetry for all pairs; every branch of five merge loops has to mirror", "anchors": ["dt/diff.py:DDLCompare.compare_databases"]}
{"id": "C14", "title": "Table differences are exact", "statement": "The first list contains a table-dropped entry exactly for each table only in db1 and a table-created entry exactly for each table only in db2, each once; the second list the reverse; a table present in both yields neither.", "quantifier": "every pair of databases", "why_tests_cant": "sorted-merge loops miss or duplicate elements only for particular interleavings of names", "anchors": ["dt/diff.py:DDLCompare.compare_databases"]}
{"id": "C15", "title": "Column differences are exact", "statement": "For a table present in both databases the first list contains column-added / column-dropped / column-modified entries for exactly the columns only in the second / only in the first / in both with different types, each once, carrying the column as it has to become; the second list the reverse.", "quantifier": "every pair of databases, every common table", "why_tests_cant": "as for tables, for all interleavings of column names", "anchors": ["dt/diff.py:DDLCompare._compare_columns"]}
{"id": "C16", "title": "Key differences are exact", "statement": "For a common table, primary key, shard key, foreign key and relationship entries appear exactly when the two sides differ, and say drop / add with the other side's definition.", "quantifier": "every pair of databases, every common table", "why_tests_cant": "quantifies over all key shapes; object identity of shard keys and asymmetric key equality make particular shapes wrong", "anchors": ["dt/diff.py:DDLCompare._compare_primary_keys", "dt/diff.py:DDLCompare._compare_shard_keys", "dt/diff.py:DDLCompare._compare_foreign_keys", "dt/diff.py:DDLCompare._compare_relationships", "dt/model.py:GenericRelationship.__eq__"]}
{"id": "C17", "title": "Applying the reported differences makes the databases match", "statement": "Executing the changes of the first list, in order, on the first database yields the tables, columns, types, primary keys, shard keys, foreign keys and relationships of the second (column and table order aside), and symmetrically for the second list.", "quantifier": "every pair of databases", "why_tests_cant": "end-to-end correctness of the diff for all pairs", "anchors": ["dt/diff.py:DDLCompare.compare_databases", "ddltools/ddldiff.py:main"]}
{"id": "C18", "title": "The printed ALTER script performs the differences", "statement": "The text write_alters prints, read back as TQL statements and executed one after the other on a server holding the first database, performs exactly the changes of the difference list.", "quantifier": "every difference list", "why_tests_cant": "relates text to meaning for all names and shapes", "anchors": ["dt/diff.py:TQLAlterWriter.write_alters", "dt/generator.py:TQLCommandGenerator", "dt/diff.py:TableCreatedDifference.get_alter", "dt/diff.py:TableDroppedDifference.get_alter", "dt/diff.py:PrimaryKeyAddedDifference.get_alter", "dt/diff.py:PrimaryKeyDroppedDifference.get_alter", "dt/diff.py:ShardKeyAddedDifference.get_alter", "dt/diff.py:ShardKeyDroppedDifference.get_alter", "dt/diff.py:ForeignKeyAddedDifference.get_alter", "dt/diff.py:ForeignKeyDroppedDifference.get_alter", "dt/diff.py:GenericRelationshipAddedDifference.get_alter", "dt/diff.py:GenericRelationshipDroppedDifference.get_alter", "dt/diff.py:ColumnDroppedDifference.get_alter", "dt/diff.py:ColumnModifiedDifference.get_alter"]}
{"id": "C19", "title": "write_alters fails exactly on primary key additions and keeps what came before", "statement": "write_alters raises exactly when some difference adds a primary key or creates a table whose number of shards is a text; the output then holds exactly the statements of the differences before the first such entry.", "quantifier": "every difference list, every crash point in it", "why_tests_cant": "all positions of the failing entry in all lists", "anchors": ["dt/diff.py:TQLAlterWriter.write_alters", "dt/generator.py:generate_add_primary_key_statement"]}
{"id": "C20", "title": "Alter scripts only use columns that exist when they are used", "statement": "When the alter script is executed in order, every primary key and foreign key it adds names columns that exist in the table at that moment.", "quantifier": "every pair of valid databases", "why_tests_cant": "an ordering property of generated scripts", "anchors": ["dt/diff.py:DDLCompare._compare_tables"]}
{"id": "C21", "title": "Two parses of the same DDL differ in nothing", "statement": "Parsing the same DDL twice and comparing the results reports no differences (what ddldiff prints for identical files).", "quantifier": "every DDL text", "why_tests_cant": "depends on equality of every key object for all inputs", "anchors": ["ddltools/ddldiff.py:main", "dt/diff.py:DDLCompare._compare_shard_keys", "dt/model.py:ShardKey", "dt/model.py:ForeignKey.__eq__"]}
{"id": "C22", "title": "Case options: precedence, exemption, idempotence", "statement": "Generated names are lower-cased if lowercase is set, else upper-cased if uppercase is set, else camel-cased if camelcase is set, else unchanged; the default schema name is never changed; lower- and upper-casing twice is the same as once.", "quantifier": "every name and option combination", "why_tests_cant": "all strings", "anchors": ["dt/generator.py:TQLCommandGenerator.to_case"]}
{"id": "C23", "title": "Camel case removes underscores and capitalises word starts", "statement": "to_camel maps w1_w2_..._wn (non-empty words without underscores, any number of leading and trailing underscores) to the concatenation of the capitalised words, is idempotent on such names, and raises exactly on names that consist of underscores only.", "quantifier": "every name", "why_tests_cant": "all strings; consecutive underscores behave differently", "anchors": ["dt/generator.py:TQLCommandGenerator.to_camel"]}
{"id": "C24", "title": "Script order: everything a statement refers to is created earlier", "statement": "In the text written by write_tql, read as TQL statements, all CREATE TABLE statements come before all foreign key statements, which come before all relationship statements, each CREATE TABLE comes right after the DROP of the same table, and for a database whose keys target existing tables each foreign key / relationship statement refers to tables created before it.", "quantifier": "every database and option combination", "why_tests_cant": "ordering over arbitrary many tables and keys", "anchors": ["dt/io.py:TQLWriter.write_tql"]}
{"id": "C25", "title": "Executing the written TQL recreates the database", "statement": "The text written by write_tql, read as TQL statements and executed on an empty server, creates exactly the database's tables with the same columns in the same order and types, primary key, shard key, foreign keys and relationships.", "quantifier": "every database whose names contain no double quote", "why_tests_cant": "end-to-end meaning of generated text for all databases", "anchors": ["dt/io.py:TQLWriter.write_tql", "dt/generator.py:generate_create_table_statement", "dt/generator.py:generate_foreign_key_statement", "dt/generator.py:generate_relationships", "dt/io.py:TQLWriter.write_create_table_statement", "dt/io.py:TQLWriter.write_foreign_keys", "dt/io.py:TQLWriter.write_relationships", "dt/generator.py:list_to_string"]}
{"id": "C26", "title": "Key clauses of a CREATE TABLE name declared columns", "statement": "For a validated database, every column named in the PRIMARY KEY and PARTITION clauses of a generated CREATE TABLE statement is declared in that statement.", "quantifier": "every validated database and every case option", "why_tests_cant": "consistency of two renderings of the same name under all options", "anchors": ["dt/generator.py:generate_create_table_statement"]}
{"id": "C27", "title": "Reading back written TQL gives the same database", "statement": "parse_ddl of the text written by write_tql returns a database with the same tables in the same order, the same columns in the same order, primary keys, shard keys, foreign keys and relationships; column types come back as their normal form (INT->BIGINT, FLOAT->DOUBLE, TIMESTAMP->DATETIME, VARCHAR..->VARCHAR(0)).", "quantifier": "every database with plain names in one schema", "why_tests_cant": "writer and parser are developed separately; inverse for all inputs", "anchors": ["dt/io.py:TQLWriter.write_tql", "dt/io.py:DDLParser.parse_ddl"]}
{"id": "C28", "title": "Type normalisation settles after one more trip", "statement": "Write-then-parse applied to a database obtained by write-then-parse changes nothing: the second trip returns an equal database and the second text equals the third.", "quantifier": "every database with plain names in one schema", "why_tests_cant": "fixpoint property for all inputs", "anchors": ["dt/io.py:DDLParser._convert_type", "dt/io.py:TQLWriter.write_tql"]}
{"id": "C29", "title": "Every converted type is a ThoughtSpot type", "statement": "Whatever text stands as a column type, type conversion either returns one of the ThoughtSpot column types, so that building the column cannot fail, or raises ValueError; it raises exactly for a NUMBER(...) whose argument list is malformed.", "quantifier": "every type text", "why_tests_cant": "all strings", "anchors": ["dt/io.py:DDLParser._convert_type", "dt/model.py:Column.__init__"]}
{"id": "C30", "title": "Type conversion ignores case and trailing text", "statement": "Type conversion gives the same answer for texts differing only in letter case, and ignores everything after the first closing parenthesis.", "quantifier": "every type text", "why_tests_cant": "all strings", "anchors": ["dt/io.py:DDLParser._convert_type"]}
{"id": "C31", "title": "Line comments do not matter", "statement": "Adding a '-- ...' comment to the end of any line (or as a line of its own) of a DDL file does not change the parsed database.", "quantifier": "every DDL file, every line, every comment text", "why_tests_cant": "all files and positions; comment handling interacts with buffering across lines", "anchors": ["dt/io.py:DDLParser._get_statements"]}
{"id": "C32", "title": "White space does not matter", "statement": "Extra blanks inside a run of blanks, leading and trailing blanks and tabs, and blank lines do not change the statements read from a DDL file.", "quantifier": "every DDL file", "why_tests_cant": "all files and positions", "anchors": ["dt/io.py:DDLParser._clean_line", "dt/io.py:DDLParser._get_statements"]}
{"id": "C33", "title": "Every terminated statement is read, once, in order", "statement": "The statements read from a comment-free file are the texts between semicolons, in order, each once.", "quantifier": "every comment-free DDL file", "why_tests_cant": "the buffer loop releases at most one statement per line, which only shows for particular layouts", "anchors": ["dt/io.py:DDLParser._get_statements", "dt/io.py:DDLParser._should_ignore_line"]}
{"id": "C34", "title": "ALTER statements never abort a parse and touch only their table", "statement": "An ALTER TABLE statement, however malformed, never makes parse_ddl raise, never adds or removes tables or columns, and changes at most the primary key, the foreign keys or the relationships of one table, which it names.", "quantifier": "every statement text and every database state", "why_tests_cant": "all malformed inputs", "anchors": ["dt/io.py:DDLParser.parse_ddl", "dt/io.py:DDLParser._add_primary_key", "dt/io.py:DDLParser._add_foreign_key", "dt/io.py:DDLParser._add_generic_relationship"]}
{"id": "C35", "title": "CREATE TABLE yields the declared columns in order", "statement": "For a CREATE TABLE statement whose parenthesised list consists of column declarations '<name> <type> [rest]' (names quoted with double quote, single quote or backquote, or plain), the table gets exactly these columns, in order, with the converted types, under the last component of the dotted table name.", "quantifier": "every such statement", "why_tests_cant": "all lengths, names, quoting styles and types with parentheses and commas", "anchors": ["dt/io.py:DDLParser._parse_create_table", "dt/io.py:DDLParser._add_columns", "dt/io.py:DDLParser._get_table_name", "dt/io.py:DDLParser._strip_quotes", "dt/io.py:DDLParser._clean_name"]}
{"id": "C36", "title": "Parsed databases are internally consistent", "statement": "Every database returned by parse_ddl carries the requested name, all its tables are in the requested schema and registered under their own names, all column types are valid, all foreign keys have as many from- as to-columns and start at the table they are stored on, likewise relationships.", "quantifier": "every DDL text", "why_tests_cant": "an invariant of the whole parse over all inputs", "anchors": ["dt/io.py:DDLParser.parse_ddl"]}
{"id": "C37", "title": "Missing input is reported, not parsed", "statement": "parse_ddl of a file that does not exist returns None and leaves the parser unchanged; without a file name it reads standard input.", "quantifier": "every file system state", "why_tests_cant": "behaviour over all file states", "anchors": ["dt/io.py:DDLParser.parse_ddl", "dt/io.py:DDLParser._get_statements"]}
{"id": "C38", "title": "Excel round trip", "statement": "Reading the workbook written for a database returns that database: tables, schemas, columns in order with types, primary keys, shard keys, foreign keys and relationships.", "quantifier": "every database whose names contain no commas, surrounding blanks or leading '='", "why_tests_cant": "inverse for all databases", "anchors": ["dt/io.py:XLSWriter", "dt/io.py:XLSReader"]}
{"id": "C39", "title": "The reader finds columns by header, whatever their position", "statement": "Reordering the columns of a sheet (header and rows alike) or adding columns with other headers does not change the databases read.", "quantifier": "every workbook, every permutation and every added column", "why_tests_cant": "all permutations and cell contents; README promises extra columns are ignored", "anchors": ["dt/io.py:XLSReader._get_column_indices"]}
{"id": "C40", "title": "A workbook of the wrong shape yields nothing", "statement": "If a required sheet or a required column header is missing, read_xls returns no database; otherwise all four sheets are read.", "quantifier": "every workbook with at least a header row per sheet", "why_tests_cant": "all combinations of missing sheets and headers", "anchors": ["dt/io.py:XLSReader._verify_file_format", "dt/io.py:XLSReader.read_xls"]}
{"id": "C41", "title": "DDL -> Excel -> TQL gives the same TQL as DDL -> TQL", "statement": "Writing TQL from the database read back from its Excel workbook produces the same text as writing TQL from the database directly.", "quantifier": "every database as for the Excel round trip, every option combination", "why_tests_cant": "composition of three components over all databases (shard counts become floats on the way)", "anchors": ["dt/io.py:XLSWriter", "dt/io.py:XLSReader", "dt/io.py:TQLWriter.write_tql"]}
{"id": "C42", "title": "Workbook rows go to the database and table they name", "statement": "Each row of the Tables sheet with a non-blank database creates a table in exactly that database; each row of the other sheets changes only the table it names in the database it names; rows naming an unknown database change nothing.", "quantifier": "every workbook", "why_tests_cant": "all rows in all orders, several databases in one workbook", "anchors": ["dt/io.py:XLSReader._read_tables_from_workbook", "dt/io.py:XLSReader._read_columns_from_workbook", "dt/io.py:XLSReader._read_foreign_keys_from_workbook", "dt/io.py:XLSReader._read_relationships_from_workbook"]}
{"id": "C43", "title": "Rows naming an unknown table are reported and skipped", "statement": "A row of the Columns, Foreign Keys or Relationships sheet that names an unknown table is skipped without raising.", "quantifier": "every workbook", "why_tests_cant": "all rows", "anchors": ["dt/io.py:XLSReader._read_relationships_from_workbook"]}
{"id": "C44", "title": "Configuration round trip", "statement": "load_from_file of a file produced by write_to_file gives an equal configuration, for keys and values that are non-empty, on one line, without '#' and surrounding white space, keys without '='; values may contain '='. Two configurations are equal exactly if each setting of the one is one of the other with the same value.", "quantifier": "every such configuration", "why_tests_cant": "inverse for all keys and values", "anchors": ["dt/util.py:ConfigFile.write_to_file", "dt/util.py:ConfigFile.load_from_file", "dt/util.py:ConfigFile.__eq__"]}
{"id": "C45", "title": "Configuration loading: last setting wins, comments and junk are ignored", "statement": "After load_from_file, get(k) is the value of the last line of the form k=v (comment stripped, both sides non-empty), or else the value before loading; comments, blank lines and malformed lines never change anything.", "quantifier": "every file text and previous configuration", "why_tests_cant": "all files", "anchors": ["dt/util.py:ConfigFile.load_from_file"]}
{"id": "C46", "title": "A loaded configuration can be used by the reviews", "statement": "Running the reviews with a configuration file that sets the documented numeric settings does not raise.", "quantifier": "every configuration file setting a numeric key", "why_tests_cant": "types of loaded values matter for every database with at least one path / shard row", "anchors": ["dt/review/review_tests.py:review_long_chain_relationships", "dt/review/review_tests.py:review_sharding", "ddltools/review.cfg"]}
{"id": "C47", "title": "Circular relationship review is exact and terminates", "statement": "For a database whose relationships target existing tables, review_circular_relationships terminates and reports exactly the tables from which a non-empty chain of foreign keys / relationships leads back to the table, each once.", "quantifier": "every database", "why_tests_cant": "reachability over arbitrary graphs; termination for all graphs", "anchors": ["dt/review/review_tests.py:review_circular_relationships", "dt/model.py:Table.get_all_related_tables"]}
{"id": "C48", "title": "Circular relationship review fails exactly on dangling references", "statement": "review_circular_relationships raises KeyError exactly when some foreign key or relationship of the database targets a table that is not in the database.", "quantifier": "every database", "why_tests_cant": "all graphs", "anchors": ["dt/review/review_tests.py:review_circular_relationships"]}
{"id": "C49", "title": "Long chain review lists exactly the long simple paths", "statement": "review_long_chain_relationships terminates and reports exactly the paths of pairwise distinct tables along foreign keys / relationships with more than max_reference_chain steps, each once, whatever order sets are iterated in.", "quantifier": "every database without dangling references, every limit, every set iteration order", "why_tests_cant": "enumeration of all simple paths in all graphs", "anchors": ["dt/review/review_tests.py:get_related_paths", "dt/review/review_tests.py:review_long_chain_relationships", "dt/review/review_tests.py:get_relationships"]}
{"id": "C50", "title": "Primary key review lists exactly the tables without primary key", "statement": "review_pks returns one recommendation per table with an empty primary key, in table order, naming database, schema and table, and none for others.", "quantifier": "every database", "why_tests_cant": "all databases", "anchors": ["dt/review/review_tests.py:review_pks"]}
{"id": "C51", "title": "Sharding review applies the thresholds", "statement": "For each statistics row of the database: an unsharded table is reported exactly if it has more than max rows; a sharded one exactly if its rows per shard are below min (too little) or above max (too much), and additionally exactly if its skew ratio exceeds the limit; rows of other databases are ignored. The quotients are floating-point numbers; with whole numbers as limits, the default skew limit and fewer than 2^50 rows this is the same as exact quotients.", "quantifier": "every statistics result and thresholds", "why_tests_cant": "all boundary combinations", "anchors": ["dt/review/review_tests.py:review_sharding", "dt/model.py:Table.get_number_shards"]}
{"id": "C52", "title": "Join review classifies cardinality", "statement": "For every foreign key and relationship, review_table_joins reports 'no data' exactly if one of the two cardinality queries gives no positive count, 1:M exactly if the to-count exceeds 1 and the from-count is 1, M:M exactly if both exceed 1, and nothing for M:1 and 1:1; queries failing in any way count as no data.", "quantifier": "every database without dangling references and every behaviour of the server", "why_tests_cant": "all query outcomes", "anchors": ["dt/review/review_tests.py:review_table_joins", "dt/review/review_tests.py:query_for_cardinality", "dt/review/review_tests.py:get_to_table_cardinality_query", "dt/review/review_tests.py:get_from_table_cardinality_query"]}
{"id": "C53", "title": "Join conditions pair the key columns", "statement": "The join condition built for a foreign key is a balanced parenthesised conjunction that equates the i-th from-column of the from-table with the i-th to-column of the to-table, for every i and in order.", "quantifier": "every foreign key", "why_tests_cant": "all key lengths", "anchors": ["dt/review/review_tests.py:get_fk_join_parts", "dt/review/review_tests.py:get_rel_join_parts"]}
{"id": "C54", "title": "Worksheet join review recommends the join type the data need", "statement": "A worksheet join over a foreign key is reported exactly if its type differs from OUTER / RIGHT_OUTER / LEFT_OUTER / INNER as determined by which of the two missing-key queries returns rows.", "quantifier": "every worksheet and every behaviour of the server", "why_tests_cant": "all outcomes", "anchors": ["dt/review/review_tests.py:review_worksheet_joins"]}
{"id": "C55", "title": "The reviewer runs exactly the applicable tests", "statement": "review_model calls exactly the review functions whose required inputs are available (and that are selected, if names are given), each once, and returns exactly their non-empty results.", "quantifier": "every set of review functions and every combination of inputs", "why_tests_cant": "all combinations", "anchors": ["dt/review/review.py:DataModelReviewer.review_model"]}
{"id": "C56", "title": "relates_to_previous decides reachability", "statement": "relates_to_previous answers whether the target can be reached from the start by one or more relationship steps, and terminates.", "quantifier": "every relationship map", "why_tests_cant": "termination and correctness on all graphs, including cyclic ones", "anchors": ["dt/review/review_tests.py:relates_to_previous"]}
{"id": "C57", "title": "Worksheets keep what is added, in order", "statement": "A Worksheet lists the tables, joins, paths, formulas and columns in the order added; get_table returns the first table of that name or None; column ids of the form path::source are split into path and source, formulas have neither.", "quantifier": "every sequence of additions", "why_tests_cant": "all sequences", "anchors": ["dt/model.py:Worksheet", "dt/model.py:WorksheetColumn.get_path", "dt/model.py:WorksheetColumn.get_source", "dt/model.py:WorksheetColumn.get_property"]}
{"id": "C58", "title": "YAML worksheets are read completely", "statement": "create_worksheet returns a worksheet with one table, join, path, formula and column per entry of the corresponding YAML list, in order and with the entry's values; missing formulas are fine.", "quantifier": "every YAML worksheet document", "why_tests_cant": "all documents", "anchors": ["dt/io.py:YAMLWorksheetReader.create_worksheet"]}
{"id": "C59", "title": "Reading from a server leaves no temporary file and touches no other file", "statement": "read_from_ts leaves every file other than <database>.tmp unchanged and, if it returns, <database>.tmp does not exist afterwards.", "quantifier": "every file system state and every server answer, every point at which parsing may raise", "why_tests_cant": "all states and crash points", "anchors": ["ddltools/convert_ddl.py:read_from_ts", "ddltools/review_model.py:read_from_ts"]}
{"id": "C60", "title": "Argument checks admit exactly the documented combinations", "statement": "convert_ddl runs exactly if an input (or --version / --empty / --to_excel) is given and --from_ddl / --from_ts come with --database; ddldiff exactly if both files are given and exist; review_model exactly if (tests are only listed or a database name and a source are given) with at most one source and existing files.", "quantifier": "every argument combination", "why_tests_cant": "all combinations of options and file states", "anchors": ["ddltools/convert_ddl.py:valid_args", "ddltools/ddldiff.py:valid_args", "ddltools/review_model.py:valid_args"]}
{"id": "C61", "title": "read_excel returns the first database or None", "statement": "convert_ddl's read_excel returns the first database of the workbook, and None exactly when there is none.", "quantifier": "every workbook", "why_tests_cant": "all workbooks", "anchors": ["ddltools/convert_ddl.py:read_excel"]}
{"id": "C62", "title": "Known types convert by name, NUMBER by precision and scale", "statement": "The usual types of the supported databases convert to their ThoughtSpot counterpart whatever letterless argument list follows; NUMBER(p,s) becomes DOUBLE unless s is 0, then BIGINT for more than nine digits and INT otherwise.", "quantifier": "every argument list, every precision and scale", "why_tests_cant": "all numbers and argument texts", "anchors": ["dt/io.py:DDLParser._convert_type"]}
{"id": "C63", "title": "Worksheet files are read unchanged", "statement": "YAMLWorksheetReader.read_from_file gives the YAML parser the text of the file.", "quantifier": "every file content", "why_tests_cant": "all contents", "anchors": ["dt/io.py:YAMLWorksheetReader.read_from_file"]}
{"id": "C64", "title": "convert_ddl changes only its outputs", "statement": "A run of convert_ddl changes no file except the one given by --to_tql, the workbook given by --to_excel (with the ending .xlsx), <database>.tmp when reading from a server, and <name of the database read>.tmp when writing to one; the input file stays as it is unless it is one of these.", "quantifier": "every argument combination, file system, server and permission", "why_tests_cant": "all states and combinations", "anchors": ["ddltools/convert_ddl.py:main", "ddltools/convert_ddl.py:write_tql", "ddltools/convert_ddl.py:write_excel", "ddltools/convert_ddl.py:write_to_ts"]}
{"id": "C65", "title": "convert_ddl writes the database it read", "statement": "After a successful run the --to_tql file holds exactly the TQL of the database read under the chosen options, the --to_excel workbook its description; converting DDL to Excel and that to TQL in two runs leaves the same file as converting directly.", "quantifier": "every input file, option combination and file system", "why_tests_cant": "all inputs and combinations", "anchors": ["ddltools/convert_ddl.py:main", "ddltools/convert_ddl.py:read_ddl", "ddltools/convert_ddl.py:write_tql", "ddltools/convert_ddl.py:write_excel"]}
{"id": "C66", "title": "A failing conversion leaves the outputs alone", "statement": "If convert_ddl cannot read a database, the files given as outputs are unchanged.", "quantifier": "every argument combination, file system and server", "why_tests_cant": "all failure points", "anchors": ["ddltools/convert_ddl.py:main", "dt/io.py:smart_open"]}
{"id": "C67", "title": "Writing to a server sends the script once and cleans up", "statement": "A successful run with --to_ts sends the server exactly one command, the TQL of the database read, and leaves no temporary file.", "quantifier": "every input, option combination and server", "why_tests_cant": "all inputs and states", "anchors": ["ddltools/convert_ddl.py:write_to_ts"]}
{"id": "C68", "title": "ddldiff can ignore case", "statement": "With --ignore_case, two files that differ only in the case of names have no differences.", "quantifier": "every pair of files", "why_tests_cant": "all pairs", "anchors": ["ddltools/ddldiff.py:main"]}
{"id": "C69", "title": "review_model uses the configuration file", "statement": "The reviews run by review_model see the settings of the file given by --config_file.", "quantifier": "every configuration file", "why_tests_cant": "all files", "anchors": ["ddltools/review_model.py:main"]}
{"id": "C70", "title": "ddldiff finds no difference between a file and itself", "statement": "ddldiff with the same file twice lists no differences.", "quantifier": "every file", "why_tests_cant": "all files", "anchors": ["ddltools/ddldiff.py:main"]}
{"id": "C71", "title": "Block comments do not matter", "statement": "A DDL file reads the same with its block comments left out, whether they take one line or several.", "quantifier": "every file with block comments", "why_tests_cant": "all placements of comments and all comment texts; the reader carries its state over lines", "anchors": ["dt/io.py:DDLParser._get_statements"]}
{"id": "C72", "title": "Converting a converted file changes nothing", "statement": "Converting the TQL file that convert_ddl wrote with the same options leaves the same text, also over its own input.", "quantifier": "every DDL file, database name, schema and combination of case options", "why_tests_cant": "composes two runs of the tool through the file system, over all files and options", "anchors": ["ddltools/convert_ddl.py:main", "dt/io.py:DDLParser.parse_ddl", "dt/io.py:TQLWriter.write_tql"]}
{"id": "C73", "title": "ddldiff finds no difference between a file and its conversion", "statement": "ddldiff of a DDL file and the TQL file convert_ddl made of it, under the same database name and schema, lists no differences.", "quantifier": "every DDL file", "why_tests_cant": "composes both tools through the file system, over all files", "anchors": ["ddltools/convert_ddl.py:main", "ddltools/ddldiff.py:main"]}
{"id": "C74", "title": "ALTER TABLE statements are read as written", "statement": "An ALTER TABLE statement in a documented form adds to the table it names exactly the primary key, foreign keys or relationship it spells out, and changes nothing else.", "quantifier": "every statement of the three documented forms, with keywords in any letter case, names bare, quoted or bracketed, with or without a path, named and unnamed keys, several constraints", "why_tests_cant": "names, columns and conditions are unbounded; the patterns are greedy and backtrack", "anchors": ["dt/io.py:DDLParser._add_primary_key", "dt/io.py:DDLParser._add_foreign_key", "dt/io.py:DDLParser._add_generic_relationship"]}
{"id": "C75", "title": "The counts in the sheet Tables are right", "statement": "In the workbook written for a database the formulas in the row of a table show the number of its columns and the numbers of foreign keys and relationships that start and end at it, under the headers that say so; together they are the numbers the database itself reports.", "quantifier": "every database, every table in it, every spreadsheet program that compares names as texts", "why_tests_cant": "the number of tables, columns and keys is unbounded; the formulas are texts with row numbers", "anchors": ["dt/io.py:XLSWriter._write_tables_worksheet", "dt/io.py:XLSWriter._write_foreign_keys_worksheet", "dt/io.py:XLSWriter._write_relationships_worksheet", "dt/io.py:XLSWriter._write_columns_worksheet"]}
{"id": "C76", "title": "ddldiff prints scripts that migrate", "statement": "ddldiff --alter1 prints a comment line and a script that turns the schema of the first file into that of the second; --alter2 one for the other direction; with both options both are printed, in this order. It raises exactly if a primary key has to be added.", "quantifier": "every two DDL files, every combination of the options, every server holding the schema of the one file", "why_tests_cant": "the files are unbounded texts; the scripts are executed on a catalogue", "anchors": ["ddltools/ddldiff.py:main", "dt/diff.py:TQLAlterWriter.write_alters", "dt/diff.py:DDLCompare.compare_databases"]}
{"id": "C77", "title": "The parser says what it leaves out", "statement": "If the parser prints no message about a DDL file, every ALTER TABLE statement in it was carried out; if it prints one about a statement, something of that statement was left out. A missing file is reported.", "quantifier": "every DDL file and statement", "why_tests_cant": "statements are unbounded texts; the messages follow from which of several patterns match", "anchors": ["dt/io.py:DDLParser._add_primary_key", "dt/io.py:DDLParser._add_foreign_key", "dt/io.py:DDLParser._add_generic_relationship", "dt/io.py:DDLParser._add_shard_key", "dt/io.py:DDLParser._parse_create_table"]}
{"id": "C78", "title": "ddldiff lists the differences", "statement": "Without --alter1 and --alter2 ddldiff prints a list for each file. The line for a table and a kind of change is in the first list exactly if the first schema has to change in this way to become the second, as often as there are such changes, and in the second list the other way round. Nothing else is printed.", "quantifier": "every two DDL files", "why_tests_cant": "the files are unbounded texts; the lists come from a merge of two sorted lists", "anchors": ["ddltools/ddldiff.py:main", "dt/diff.py:DDLCompare.compare_databases", "dt/diff.py:ColumnAddedDifference", "dt/diff.py:DatabaseDifference.__repr__"]}
{"id": "C79", "title": "CREATE TABLE statements with keys are read as declared", "statement": "A CREATE TABLE statement with columns, primary keys, other keys and a PARTITION BY HASH clause adds the table with exactly these columns in order, the primary key given last, and the shard key of the clause.", "quantifier": "every statement of this form, with keywords in any letter case, names bare, quoted or bracketed, any white space in the list", "why_tests_cant": "the list is unbounded; the parser cuts it at commas outside parentheses and searches the rest with a greedy pattern", "anchors": ["dt/io.py:DDLParser._parse_create_table", "dt/io.py:DDLParser._add_columns", "dt/io.py:DDLParser._add_hashkey"]}
{"id": "C80", "title": "A DDL file is read as the database it describes", "statement": "From a file of CREATE TABLE and ALTER TABLE statements parse_ddl returns the database they describe: the tables in the order of their creation, each with its columns and keys and with the changes that come after it, and nothing else. Nothing is reported if every table is created before it is altered.", "quantifier": "every file of such statements, of any number and length, spread over lines in any way with at most one semicolon in each, with comments at the ends of lines and on lines of their own", "why_tests_cant": "files are unbounded; splitting into statements, comments, the two kinds of statements and the dictionary of tables have to work together", "anchors": ["dt/io.py:DDLParser.parse_ddl", "dt/io.py:DDLParser._get_statements", "dt/io.py:DDLParser._parse_create_table", "dt/io.py:DDLParser._add_foreign_key"]}
{"id": "C81", "title": "The workbook reader says what it leaves out", "statement": "The messages printed while a workbook is read name exactly the missing sheets and headers, or else exactly the rows that cannot be used, in order: rows about an unknown database or table and tables with only half a shard key. No message is a false alarm, also if reading fails. If there is no message, no row is lost.", "quantifier": "every workbook", "why_tests_cant": "workbooks are unbounded; which rows are known depends on all rows of another sheet", "anchors": ["dt/io.py:XLSReader._verify_file_format", "dt/io.py:XLSReader._read_tables_from_workbook", "dt/io.py:XLSReader._read_columns_from_workbook", "dt/io.py:XLSReader._read_foreign_keys_from_workbook", "dt/io.py:XLSReader._read_relationships_from_workbook"]}
{"id": "C82", "title": "From a DDL file to the tables on the server", "statement": "convert_ddl --from_ddl --to_tql on a file of CREATE TABLE and ALTER TABLE statements ends without an exception, with or without --validate, changes only the target file, and leaves there a script that, executed on a server, makes exactly the tables the DDL file describes: a new database with --create_db, or else the tables of a database that exists, the others staying as they are. With --to_ts that script is what is sent. ddldiff with --alter1 or --alter2 prints scripts that turn the tables the one file describes into those the other describes.", "quantifier": "every file of such statements, every server state, every file system", "why_tests_cant": "files and servers are unbounded; reading, checking and writing have to work together", "anchors": ["ddltools/convert_ddl.py:main", "ddltools/ddldiff.py:main", "dt/io.py:DDLParser.parse_ddl", "dt/io.py:TQLWriter.write_tql"]}
{"id": "C83", "title": "convert_ddl says what it does", "statement": "convert_ddl announces each step it was asked for, in order, before taking it; if it stops with an exception, the step announced last is the one that failed. With --validate it says that the database is valid exactly if it is well-formed and otherwise prints one line for each defect. Reading a workbook it says if there is no database, and which one is used if there are several. With --to_tql - it prints the script that would be left in a file. Wrong arguments are met with a line that says what is missing. Printing changes nothing in what is done.", "quantifier": "all arguments, files, workbooks and server answers", "why_tests_cant": "files and workbooks are unbounded; the lines depend on the whole database", "anchors": ["ddltools/convert_ddl.py:main", "ddltools/convert_ddl.py:valid_args", "ddltools/convert_ddl.py:read_excel", "dt/model.py:ValidationResult.eprint_issues", "dt/io.py:smart_open"]}
{"id": "C84", "title": "No line of a configuration file is dropped silently", "statement": "Loading a configuration file prints one message, in order, for exactly the lines with text that set nothing, naming the file and quoting the text of the line without its comment; the message tells a missing equal sign from a missing name or value. A file that cannot be read or written is named in one message.", "quantifier": "every file, every previous configuration", "why_tests_cant": "files are unbounded; comments, white space and further equal signs have to be told apart", "anchors": ["dt/util.py:ConfigFile.load_from_file", "dt/util.py:ConfigFile.write_to_file"]}
{"id": "C85", "title": "The reviews say what they ask and what they leave out", "statement": "The review of the joins of tables prints every query before it asks it and shows an error exactly after the queries that were not answered with a number. The review of a worksheet says for each join its two queries, or why the join is not checked. The reviewer names each review it skips, with its parameters, and calls all others in order up to the first that raises; each begins by naming the database it reviews. Printing changes nothing in what is reported.", "quantifier": "every database, worksheet and server (any answers, also errors)", "why_tests_cant": "databases, worksheets and answers are unbounded", "anchors": ["dt/review/review_tests.py:review_table_joins", "dt/review/review_tests.py:query_for_cardinality", "dt/review/review_tests.py:review_worksheet_joins", "dt/review/review.py:DataModelReviewer.review_model"]}
{"id": "C86", "title": "review_model says what it does and finds", "statement": "review_model answers wrong arguments with one line for each mistake, in order, and does nothing. --show_tests lists each review once with its parameters and its description. A run that ends with results prints exactly these, by review. On a DDL file without a server it names the reviews it does and those it skips, and shows exactly the tables that lead back to themselves, the paths of more than three steps, and the tables without primary key; if a key leads to no table it ends with KeyError after the first announcement. Printing changes nothing in what is done.", "quantifier": "all arguments, files and databases", "why_tests_cant": "files and databases are unbounded; the lines depend on all paths of the database", "anchors": ["ddltools/review_model.py:main", "ddltools/review_model.py:valid_args", "dt/review/review.py:DataModelReviewer.get_test_descriptions", "dt/review/review.py:DataModelReviewer.review_model", "dt/review/review_tests.py:review_relationships"]}
{"id": "C87", "title": "ddldiff says what it does", "statement": "What ddldiff prints to the standard output is exactly the scripts and lists of differences of its run, also if it ends with an exception. Wrong arguments are met with one line that says a file was not given, or with one line for each file that does not exist. What the parser says about the first file comes before everything about the second, which is not read if the first cannot be.", "quantifier": "all arguments and files", "why_tests_cant": "files are unbounded; the text depends on both databases", "anchors": ["ddltools/ddldiff.py:main", "ddltools/ddldiff.py:valid_args"]}
{"id": "C88", "title": "A server that checks references accepts the scripts of valid databases", "statement": "Executed on a server that refuses key clauses with undeclared columns, shard keys outside the primary key, foreign keys that do not lead to the primary key of an existing table column by column with matching types, and relationships to missing tables, the script write_tql makes of a valid database is accepted statement by statement, under every case option and with or without create_db, and leaves the tables of the database as printed.", "quantifier": "all databases, case options and server contents", "why_tests_cant": "databases and servers are unbounded; each statement has to be in order in the state left by all statements before it", "anchors": ["dt/io.py:TQLWriter.write_tql", "dt/generator.py:TQLCommandGenerator.generate_create_table_statement", "dt/generator.py:TQLCommandGenerator.generate_foreign_key_statement", "dt/generator.py:TQLCommandGenerator.generate_relationships", "dt/model.py:DatabaseValidator.validate"]}
{"id": "C89", "title": "A server that checks references accepts ddldiff's scripts for valid databases", "statement": "Executed on a server holding the first database that refuses statements referring to columns, primary keys or tables that do not exist at that moment, the ALTER statements ddldiff prints for two valid databases are accepted one by one; likewise for the other direction.", "quantifier": "all pairs of databases and all server contents outside them", "why_tests_cant": "databases are unbounded; whether an entry is in order depends on everything the entries before it did to other tables", "anchors": ["dt/diff.py:DDLCompare.compare_databases", "ddltools/ddldiff.py:main"]}
{"id": "C90", "title": "What the parser prints about a statement is true and points to it", "statement": "Every line the parser writes to the standard error stream while it reads a file is about one statement of that file and true when that statement's turn comes: a statement from which nothing could be extracted does not have the documented form, a table called unknown is not in the database, and the reason given for a failure (no table name, numbers of columns that differ, a shard count that is no number) is the actual one. The line contains the statement or the name of the unknown table, and different messages are different lines.", "quantifier": "every DDL file", "why_tests_cant": "statements are unbounded texts; what is printed depends on which of several backtracking patterns match", "anchors": ["dt/io.py:DDLParser._add_primary_key", "dt/io.py:DDLParser._add_foreign_key", "dt/io.py:DDLParser._add_generic_relationship", "dt/io.py:DDLParser._add_hashkey", "dt/model.py:ForeignKey.__init__"]}
{"id": "C91", "title": "Command lines are read as the options are declared", "statement": "The three programs have the documented options and no others. A command line is accepted exactly if it can be read as a sequence of flags, options with a value (apart, joined with an equals sign, or attached to a short name), joined short flags and unambiguous abbreviations; of repeated options the last one counts, and what is not set has the documented default. Every combination of arguments can be given, in any order. A command line that cannot be read changes nothing and is refused with status 2. The sample commands of the README are accepted.", "quantifier": "every list of command line arguments", "why_tests_cant": "command lines are unbounded; whether a word is an option, an abbreviation, a value or a cluster of flags depends on all declared names and on the words before it", "anchors": ["ddltools/convert_ddl.py:parse_args", "ddltools/ddldiff.py:parse_args", "ddltools/review_model.py:get_parser"]}
{"id": "C92", "title": "Passwords are not shown", "statement": "The password given to convert_ddl or review_model is not printed on the standard output.", "quantifier": "every command line, server and file", "why_tests_cant": "the output depends on everything the run reads", "anchors": ["ddltools/convert_ddl.py:main", "ddltools/review_model.py:main"]}
{"id": "C93", "title": "A script on the standard output is a script", "statement": "If convert_ddl writes its script to the standard output (--to_tql -), or ddldiff prints its ALTER statements, then the standard output of the run can be read as a script with exactly these statements.", "quantifier": "every command line, server and file", "why_tests_cant": "the output depends on everything the run reads", "anchors": ["ddltools/convert_ddl.py:main", "ddltools/ddldiff.py:main", "dt/io.py:smart_open"]}
{"id": "C94", "title": "The exit status tells whether a run succeeded", "statement": "The exit status of the three programs is 0 exactly if the run did what it was asked to: it is not 0 if the command line is refused, the arguments are insufficient, a file does not exist, the database is invalid, or an exception is raised.", "quantifier": "every command line, server and file", "why_tests_cant": "the outcome depends on everything the run reads", "anchors": ["ddltools/convert_ddl.py:main", "ddltools/ddldiff.py:main", "ddltools/review_model.py:main"]}
{"id": "C95", "title": "A file that cannot be decoded is not used in part", "statement": "If a DDL file has bytes that cannot be decoded, a message says so, and the programs neither convert, compare nor review the part of the file before these bytes.", "quantifier": "every file, command line, server and disk", "why_tests_cant": "the part that is read depends on how Python buffers the file; the outputs depend on everything else", "anchors": ["dt/io.py:DDLParser._get_statements", "ddltools/convert_ddl.py:main", "ddltools/ddldiff.py:main", "ddltools/review_model.py:main"]}
{"id": "C96", "title": "Which names a DDL file can give", "statement": "A file gives a list of statements exactly if each is one line without semicolons, tabs and runs of blanks, and without white space around it. For every kind of name (tables, columns, keys, foreign keys, relationships) and for the conditions of relationships there is an explicit set of texts: every database read from a file has only texts of these sets, and each of these texts is given by some file. So a database with another name comes back from no file.", "quantifier": "every file, parser and name", "why_tests_cant": "files and names of any length; the parser uses splitting, slicing and greedy patterns on the text", "anchors": ["dt/io.py:DDLParser._get_statements", "dt/io.py:DDLParser._parse_create_table", "dt/io.py:DDLParser._add_columns", "dt/io.py:DDLParser._add_foreign_key", "dt/io.py:DDLParser._add_generic_relationship"]}
{"id": "C97", "title": "The primary key of a table is the one set last", "statement": "After any calls of set_primary_key the primary key is that of the last call that was accepted, or the one from before; a call with None or with something that is neither a text nor a list raises and leaves the table unchanged.", "quantifier": "every table and sequence of calls", "why_tests_cant": "sequences of any length", "anchors": ["dt/model.py:Table.set_primary_key"]}
{"id": "C98", "title": "Mistakes are reported on the error stream", "statement": "The standard error stream of a run of convert_ddl has the messages of the reader of the database, then, with --validate, one line for each defect of the database if it is not valid, and nothing else, whatever is written where. It is empty exactly if the reader has nothing to report and the database, if validated, is valid. ddldiff and review_model with files have there the messages of the parser and nothing else. Insufficient arguments are reported there, and the standard output is then empty or has the help.", "quantifier": "every command line, file, server and disk", "why_tests_cant": "the messages depend on everything the run reads", "anchors": ["ddltools/convert_ddl.py:main", "ddltools/ddldiff.py:main", "ddltools/review_model.py:main", "dt/util.py:eprint"]}
{"id": "C99", "title": "Only a broken CREATE TABLE ends the reading of a DDL file", "statement": "parse_ddl raises on a text file exactly if one of the statements creates a table whose list has an empty field, except after a comma at the end (IndexError), or a column of a NUMBER type with malformed arguments (ValueError). The first such statement gives the exception; the parser is left with the tables of the statements before. convert_ddl then ends with the exception and changes no file, ddldiff compares nothing.", "quantifier": "every text file, parser, command line and disk", "why_tests_cant": "files of any length; the fields are found by splitting and slicing on the text", "anchors": ["dt/io.py:DDLParser.parse_ddl", "dt/io.py:DDLParser._add_columns", "dt/io.py:DDLParser._convert_type", "ddltools/convert_ddl.py:main", "ddltools/ddldiff.py:main"]}
{"id": "C100", "title": "The statements of every DDL file", "statement": "Which statements are read from a text file is a function of its text: lines end with LF, CR or both; of a line counts what is before two dashes, outside a block comment that started on an earlier line, and outside the first comment that starts on the line; lines that begin with GO count for nothing. The statements are the texts before the semicolons, tidied up, in order, without the last k, where k is the largest excess of semicolons over lines at an end of the file (at most one statement is taken per line).", "quantifier": "every text file", "why_tests_cant": "files of any length; the reader keeps a buffer and a comment flag over all lines and releases one statement per line", "anchors": ["dt/io.py:DDLParser._get_statements", "dt/io.py:DDLParser._clean_line", "dt/io.py:DDLParser.parse_ddl"]}
{"id": "C101", "title": "What is made of every statement and every file", "statement": "What a statement does to the database is a function of its text alone: a CREATE TABLE files exactly one table, with the name, columns, types, primary key and shard key that its text gives, in the place of one with the same name; an ALTER TABLE changes at most one table, giving it the primary key, the foreign keys up to the first constraint that cannot be used, or the relationship that its text gives; every other statement does nothing. The database read from a file is what its statements, one after the other, make of an empty one, up to the first that raises.", "quantifier": "every statement, text file, schema and parser", "why_tests_cant": "texts of any length; the parser uses nested splitting, slicing and greedy patterns with backtracking", "anchors": ["dt/io.py:DDLParser.parse_ddl", "dt/io.py:DDLParser._parse_create_table", "dt/io.py:DDLParser._add_columns", "dt/io.py:DDLParser._convert_type", "dt/io.py:DDLParser._add_primary_key", "dt/io.py:DDLParser._add_foreign_key", "dt/io.py:DDLParser._add_generic_relationship", "dt/io.py:DDLParser._extract_table_name", "dt/io.py:DDLParser._extract_name", "dt/io.py:DDLParser._get_matches"]}
{"id": "C102", "title": "What the parser says about every statement and every file", "statement": "Which messages a statement causes is a function of its text and of the tables there are: for every statement that can be read the messages are those of the form it fails to have, the name it lacks, the number that is none, the lists of different lengths or the table that is not there, with Python's own reasons; constraints are reported one after the other up to the first that is misshapen. The messages of a file are those of its statements in order, up to the first that raises. Exactly when nothing is said about an ALTER TABLE is a function of its text and of the tables.", "quantifier": "every statement, text file, partly decodable file, schema and parser", "why_tests_cant": "texts of any length; the messages depend on the whole history of the database being built", "anchors": ["dt/io.py:DDLParser.parse_ddl", "dt/io.py:DDLParser._add_primary_key", "dt/io.py:DDLParser._add_foreign_key", "dt/io.py:DDLParser._add_generic_relationship", "dt/io.py:DDLParser._add_shard_key"]}
{"id": "C103", "title": "What is made of every workbook", "statement": "What is read from a workbook is a function of what its four sheets say: a sheet without a header row ends in an IndexError; without one of the sheets or headers nothing is read; otherwise the rows of Tables, Columns, Foreign Keys and Relationships are read in this order, and the first row that cannot be used - a number where a text is needed, a type that is none, lists of columns of different lengths, a relationship of an unknown table in a known database - ends the reading with its exception; if there is no such row, the databases are exactly those the rows describe, including the counts of rows per schema.", "quantifier": "every workbook", "why_tests_cant": "sheets of any size with texts and numbers in any cell; rows refer to rows of other sheets", "anchors": ["dt/io.py:XLSReader.read_xls", "dt/io.py:XLSReader._verify_file_format", "dt/io.py:XLSReader._get_column_indices", "dt/io.py:XLSReader._read_databases_from_workbook", "dt/io.py:XLSReader._read_tables_from_workbook", "dt/io.py:XLSReader._read_columns_from_workbook", "dt/io.py:XLSReader._read_foreign_keys_from_workbook", "dt/io.py:XLSReader._read_relationships_from_workbook", "dt/model.py:Database.add_table"]}
{"id": "C104", "title": "What the workbook reader says about every workbook", "statement": "Which messages a workbook causes is a function of what its four sheets say, also if its reading ends in an exception: what is missing of the needed sheets, up to the first without a header row; if nothing is missing, for each table with a shard key but no number of shards or the reverse one message, and for each later row that names an unknown database or an unknown table one message, in the order of the sheets and rows, up to and including the first row that cannot be used.", "quantifier": "every workbook in which no number is used as the name of a database or table", "why_tests_cant": "sheets of any size with texts and numbers in any cell; whether a row is reported depends on the rows of another sheet", "anchors": ["dt/io.py:XLSReader.read_xls", "dt/io.py:XLSReader._verify_file_format", "dt/io.py:XLSReader._read_tables_from_workbook", "dt/io.py:XLSReader._read_columns_from_workbook", "dt/io.py:XLSReader._read_foreign_keys_from_workbook", "dt/io.py:XLSReader._read_relationships_from_workbook"]}
{"id": "C105", "title": "What is wrong with a document that is no worksheet is what is raised", "statement": "create_worksheet raises an exception exactly if something is wrong with the document, and the first thing that is wrong, in the order head, tables, joins, table paths, formulas, columns, says which: KeyError for a missing value, TypeError for a value without keys or entries where they are needed, AttributeError for a path step or column properties that are no mapping, AssertionError for an empty name or an unknown table type, ValueError for properties that are not made of pairs. Every document either describes one worksheet or has one such exception.", "quantifier": "every YAML document", "why_tests_cant": "documents of any shape and size, any value in any place; the entries before the first wrong one must be in order", "anchors": ["dt/io.py:YAMLWorksheetReader.create_worksheet", "dt/model.py:WorksheetTable.__init__", "dt/model.py:WorksheetJoin.__init__", "dt/model.py:WorksheetTablePath.__init__", "dt/model.py:WorksheetFormula.__init__", "dt/model.py:WorksheetColumn.__init__"]}
{"id": "C106", "title": "A configuration holds what was last put into it", "statement": "After any sequence of settings (cfg[key] = value) and loaded files on a new ConfigFile, a name has the value it was set to last, by a setting or by a line of a file; indexing gives None and get gives the default for a name that was never set; len is the number of different names; and two configurations are equal exactly if the same names were set, last to equal values.", "quantifier": "every sequence of calls on a ConfigFile", "why_tests_cant": "settings and loads in any order and number; files of any content, missing, unreadable or decodable only in part; values are integers, floats and texts", "anchors": ["dt/util.py:ConfigFile.__setitem__", "dt/util.py:ConfigFile.__getitem__", "dt/util.py:ConfigFile.__len__", "dt/util.py:ConfigFile.get", "dt/util.py:ConfigFile.__eq__", "dt/util.py:ConfigFile.load_from_file"]}
{"id": "C107", "title": "A validation result is valid exactly as long as nothing was added", "statement": "After any sequence of add_issue, add_error, add_warning and add_info on a new ValidationResult, the issues are those added, in order and with the level of the call (ERROR for add_issue without a level); is_valid holds exactly if there was no call at all, so that an information makes a result invalid as well; and eprint_issues prints one line per issue, made of the word of the level, a colon, two blanks and the text.", "quantifier": "every sequence of calls on a ValidationResult", "why_tests_cant": "any number of calls in any order, any texts", "anchors": ["dt/model.py:ValidationResult.add_issue", "dt/model.py:ValidationResult.add_error", "dt/model.py:ValidationResult.add_warning", "dt/model.py:ValidationResult.add_info", "dt/model.py:ValidationResult.eprint_issues"]}
{"id": "C108", "title": "Every loaded configuration can be saved", "statement": "A configuration that was made by loading files, any number of them and whatever is in them, is the same, in the same order, after it was written to a file and loaded into a new ConfigFile. After any calls, settings made by code included, what comes back is equal to the configuration exactly if every name was last set to a text and neither has a line end, a comment sign or white space at its ends, nor the name an equal sign.", "quantifier": "every sequence of calls on a ConfigFile, then write_to_file and load_from_file", "why_tests_cant": "files of any content, any texts as names and values, numbers as values", "anchors": ["dt/util.py:ConfigFile.load_from_file", "dt/util.py:ConfigFile.write_to_file", "dt/util.py:ConfigFile.__setitem__", "dt/util.py:ConfigFile.__eq__"]}
{"id": "C109", "title": "What keeps a valid database valid", "statement": "After drop_table on a database that validate accepts, the database is accepted exactly if no other table has a foreign key or a relationship to the dropped one. After add_table of a table with a new name it is accepted exactly if the new table is in order: known types, existing columns in its keys, shard key within the primary key, foreign keys that fit the primary key they point to, relationships from this table to existing ones; if it takes the place of a table with its name, the foreign keys of the other tables to that name must also fit the new one. The order in which tables were added does not matter.", "quantifier": "every database and table built through the API", "why_tests_cant": "any number of tables, keys and relationships; references may go round in circles and to the table itself", "anchors": ["dt/model.py:Database.validate", "dt/model.py:Database.drop_table", "dt/model.py:Database.add_table", "dt/model.py:DatabaseValidator.validate"]}
{"id": "C110", "title": "The reviews of a valid database with columns in its tables end with a report", "statement": "If validate accepts a database and each of its tables has a column, then the review of circular relationships lists exactly the tables from which references lead back to them, the review of long chains ends with a report if the limit is unset or a number, and the review of joins ends with the report on all joins, whatever the server answers. None of them raises. Tables without columns are valid too, but then the review of joins can raise IndexError.", "quantifier": "every database built through the API that validate accepts; every order of sets; every server", "why_tests_cant": "any number of tables, circles of references, keys of several columns, servers that answer anything", "anchors": ["dt/review/review_tests.py:review_circular_relationships", "dt/review/review_tests.py:review_long_chain_relationships", "dt/review/review_tests.py:review_table_joins", "dt/model.py:Database.validate"]}
{"id": "C111", "title": "The order in which things were added does not change a comparison", "statement": "compare_databases gives the same differences in the same order whatever the order of the tables in the two databases; and for two tables present on both sides the ALTER statements written are the same, in the same order, whatever the order of their columns, foreign keys and relationships; so both scripts are the same text if the tables missing on one side list their columns as before. (A CREATE TABLE statement for a table missing on one side does list the columns as they stand.)", "quantifier": "every two databases and tables, every reordering", "why_tests_cant": "all databases and all permutations", "anchors": ["dt/diff.py:DDLCompare.compare_databases", "dt/diff.py:TQLAlterWriter.write_alters"]}
