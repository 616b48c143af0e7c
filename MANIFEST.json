{
 "claims": [
  {
   "property": "C01",
   "status": "proved",
   "theorems": [
    "Verif.Props.C01_columns_ordered_map"
   ],
   "note": "For every history of add/drop calls."
  },
  {
   "property": "C02",
   "status": "proved",
   "theorems": [
    "Verif.Props.C02_tables_ordered_map",
    "Verif.Props.C02_drop_returns"
   ],
   "note": "For every history of add/drop calls."
  },
  {
   "property": "C03",
   "status": "proved",
   "theorems": [
    "Verif.Props.C03_schema_names_exactly",
    "Verif.Props.C03_schema_names",
    "Verif.Props.C03_ghost_schema"
   ],
   "note": "As stated, with the exception in the statement (C03_schema_names); and exactly: a schema is listed iff a table of it is present or a table of it was once replaced (C03_schema_names_exactly), so a schema can stay listed without tables: C03_ghost_schema."
  },
  {
   "property": "C04",
   "status": "proved",
   "theorems": [
    "Verif.Props.C04_drop_never_raises"
   ],
   "note": "For every database and name."
  },
  {
   "property": "C05",
   "status": "proved",
   "theorems": [
    "Verif.Props.C05_foreign_keys_registered",
    "Verif.Props.C05_unnamed_foreign_keys_collide",
    "Verif.Props.C05_relationships_registered",
    "Verif.Props.C05_any_calls",
    "Verif.Props.C05_refusals"
   ],
   "note": "For every history of calls, with objects, details and refused arguments (the refusals are characterised); unnamed foreign keys replace each other (witness)."
  },
  {
   "property": "C06",
   "status": "proved",
   "theorems": [
    "Verif.Props.C06_table_constructor",
    "Verif.Props.C06_table_constructor_error",
    "Verif.Props.C06_shard_key_told",
    "Verif.Props.C06_no_shard_key",
    "Verif.Props.C06_column_constructor",
    "Verif.Props.C06_foreign_key_constructor",
    "Verif.Props.C06_foreign_key_errors",
    "Verif.Props.C06_keys_normalised"
   ],
   "note": "For every argument."
  },
  {
   "property": "C07",
   "status": "proved",
   "theorems": [
    "Verif.Props.C07_relationship_counts_balance",
    "Verif.Props.C07_unknown_table"
   ],
   "note": "For every history of API calls."
  },
  {
   "property": "C08",
   "status": "proved",
   "theorems": [
    "Verif.Props.C08_valid_iff_well_formed",
    "Verif.Props.C08_valid_iff_well_formed_api"
   ],
   "note": "For every database with consistent registries, which every API history yields."
  },
  {
   "property": "C09",
   "status": "proved",
   "theorems": [
    "Verif.Props.C09_key_lists_readable",
    "Verif.Props.C09_issues_are_exactly_the_defects"
   ],
   "note": "Issues are exactly the defects, in both directions; the key lists in the messages determine the keys."
  },
  {
   "property": "C10",
   "status": "partial",
   "theorems": [
    "Verif.Props.C10_foreign_key_covers_primary_key_partial",
    "Verif.Props.C10_duplicate_target_column_accepted"
   ],
   "note": "Holds when the target columns are distinct, and for a primary key without repeated columns exactly then; a repeated target column is accepted (witness C10_duplicate_target_column_accepted)."
  },
  {
   "property": "C11",
   "status": "proved",
   "theorems": [
    "Verif.Props.C11_validate_total",
    "Verif.Props.C11_validate_total_api",
    "Verif.Props.C11_validate_raises_on_tampered_key"
   ],
   "note": "No exception for every API-built database; witness that a tampered key raises."
  },
  {
   "property": "C12",
   "status": "partial",
   "theorems": [
    "Verif.Props.C12_self_compare_partial",
    "Verif.Props.C12_self_compare_reports_foreign_key"
   ],
   "note": "Holds exactly when every foreign key has the same column names on both sides and shard keys are the same objects; witness otherwise."
  },
  {
   "property": "C13",
   "status": "partial",
   "theorems": [
    "Verif.Props.C13_swap_partial",
    "Verif.Props.C13_swap_fails",
    "Verif.Props.C13_exactly"
   ],
   "note": "C13_exactly: swapping the databases swaps the reports if and only if no foreign key between equally named columns meets one between differently named columns under the same name and between the same tables. Swap law under the stated comparability of foreign keys; witness that it fails without."
  },
  {
   "property": "C14",
   "status": "proved",
   "theorems": [
    "Verif.Props.C14_table_differences"
   ],
   "note": "For all pairs of databases with consistent registries."
  },
  {
   "property": "C15",
   "status": "proved",
   "theorems": [
    "Verif.Props.C15_column_differences",
    "Verif.Props.C15_only_common_tables"
   ],
   "note": "For all pairs of databases with consistent registries."
  },
  {
   "property": "C16",
   "status": "partial",
   "theorems": [
    "Verif.Props.C16_primary_key",
    "Verif.Props.C16_relationships",
    "Verif.Props.C16_shard_key_partial",
    "Verif.Props.C16_equal_shard_keys_reported",
    "Verif.Props.C16_foreign_keys_partial",
    "Verif.Props.C16_changed_foreign_key_not_reported"
   ],
   "note": "Primary keys and relationships in full; shard keys by identity and foreign keys by the comparison the code makes, with witnesses for equal shard keys reported and changed foreign keys not reported."
  },
  {
   "property": "C17",
   "status": "partial",
   "theorems": [
    "Verif.Props.C17_differences_migrate_partial",
    "Verif.Props.C17_new_table_loses_keys",
    "Verif.Props.C17_new_schema_refused",
    "Verif.Props.C17_schema_move_missed",
    "Verif.Props.C17_changed_foreign_key_missed",
    "Verif.Props.C17_name_clash_refused",
    "Verif.Props.C17_exactly"
   ],
   "note": "C17_exactly gives the exact condition for each direction (if and only if): for databases a catalogue can hold, the list is accepted and arrives at the other database exactly when no table moves to another schema, no new foreign key takes the name of an old relationship, shard keys that are one object read the same, foreign keys not told apart have the same columns, and new tables carry no foreign keys or relationships and are in a schema that exists. The full claim is false: a witness for each condition."
  },
  {
   "property": "C18",
   "status": "partial",
   "theorems": [
    "Verif.Props.C18_alter_script_reads_partial",
    "Verif.Props.C18_alter_script_migrates_partial",
    "Verif.Props.C18_quote_in_name",
    "Verif.Props.C18_no_columns",
    "Verif.Props.C18_float_count",
    "Verif.Props.C18_exactly"
   ],
   "note": "For lists of printable differences the text reads as exactly the statements of the differences; end to end with C17: executing the printed text migrates the first database to the second (C18_exactly: for databases that can be quoted, with whole shard counts, this happens if and only if the list is complete and no primary key is added). Missing: names with a double quote, fractional shard counts, key clauses of tables without columns (witnesses), primary key additions (C19)."
  },
  {
   "property": "C19",
   "status": "proved",
   "theorems": [
    "Verif.Props.C19_raises_exactly",
    "Verif.Props.C19_prefix_reads"
   ],
   "note": "For every difference list and every position of the first failing entry."
  },
  {
   "property": "C20",
   "status": "partial",
   "theorems": [
    "Verif.Props.C20_key_columns_exist_partial",
    "Verif.Props.C20_key_on_new_column",
    "Verif.Props.C20_exactly",
    "Verif.Props.C20_referenced_columns_exist_partial",
    "Verif.Props.C20_target_created_later",
    "Verif.Props.C20_target_column_later"
   ],
   "note": "C20_exactly, for every pair of databases: if what comes before is accepted, the columns of an added key are there at that moment iff they are in the old version of the table. Keys are added before the columns of the table change, so the claim holds for an entry iff its columns are in the old table; the columns a foreign key refers to exist at that moment iff they are in the new version of a table with an earlier name or in the old version of any other table. Witnesses for a key on a new column, to a table created later and to a column added later."
  },
  {
   "property": "C21",
   "status": "partial",
   "theorems": [
    "Verif.Props.C21_same_text_partial",
    "Verif.Props.C21_sharded",
    "Verif.Props.C21_foreign_key"
   ],
   "note": "Exact condition under which two parses of the same text compare equal; the unconditional claim is false (witnesses C21_sharded, C21_foreign_key)."
  },
  {
   "property": "C22",
   "status": "proved",
   "theorems": [
    "Verif.Props.C22_case_options",
    "Verif.Props.C22_idempotent"
   ],
   "note": "For every name (ASCII case mapping) and option combination."
  },
  {
   "property": "C23",
   "status": "proved",
   "theorems": [
    "Verif.Props.C23_camel_case",
    "Verif.Props.C23_raises_exactly",
    "Verif.Props.C23_consecutive_underscores"
   ],
   "note": "For every snake-case name with any padding; consecutive underscores are a witness of other behaviour."
  },
  {
   "property": "C24",
   "status": "partial",
   "theorems": [
    "Verif.Props.C24_exactly",
    "Verif.Props.C24_script_order_partial",
    "Verif.Props.C24_other_schema"
   ],
   "note": "C24_exactly: everything a key statement refers to is created before it if and only if both ends of every key are in the schema of the table it is stored on. The order holds for every printable database and option combination; references are created earlier if keys stay in one schema and on their table (witness C24_other_schema: a valid database whose script refers to a table that is never created)."
  },
  {
   "property": "C25",
   "status": "partial",
   "theorems": [
    "Verif.Props.C25_exactly",
    "Verif.Props.C25_case_recreates_partial",
    "Verif.Props.C25_case_refreshes_partial",
    "Verif.Props.C25_collision",
    "Verif.Props.C25_recreates_database_partial",
    "Verif.Props.C25_refreshes_database_partial",
    "Verif.Props.C25_name_clash"
   ],
   "note": "C25_exactly: for printable databases with keys stored on their table, the script creates exactly the database if and only if no foreign key of a table is called like one of its relationships. For printable databases with keys stored on their table and no foreign key named like a relationship (witness C25_name_clash); for all case options, with the database as printed, unless names are printed alike (witness C25_collision). Whether references are in order is C88."
  },
  {
   "property": "C26",
   "status": "partial",
   "theorems": [
    "Verif.Props.C26_exactly",
    "Verif.Props.C26_key_columns_declared_partial",
    "Verif.Props.C26_upper_case"
   ],
   "note": "C26_exactly: for valid printable databases the key clauses name declared columns if and only if the case option changes no key column. Holds unless lower or upper case changes a key column: key clauses keep the original case (witness C26_upper_case)."
  },
  {
   "property": "C27",
   "status": "partial",
   "theorems": [
    "Verif.Props.C27_needed",
    "Verif.Props.C27_printed_partial",
    "Verif.Props.C27_round_trip_partial",
    "Verif.Props.C27_constraint_lost",
    "Verif.Props.C27_foreign_lost",
    "Verif.Props.C27_condition_cut",
    "Verif.Props.C27_no_column_raises",
    "Verif.Props.C27_blank_in_key",
    "Verif.Props.C27_address_lost",
    "Verif.Props.C27_key_lost",
    "Verif.Props.C27_open_lost",
    "Verif.Props.C27_parenthesis_lost",
    "Verif.Props.C27_schema_lost"
   ],
   "note": "Proved for any case options and schemas. Names are words separated by single blanks without quotes, brackets, parentheses, dots, commas, semicolons, comment signs or phrases the parser looks for; column names may also have blanks at the ends, dots, apostrophes and closed parentheses with commas in them, and primary keys dots, apostrophes and open parentheses. C27_needed gives conditions on the names that hold whenever any file gives the database. Fails for foreign keys with the word 'constraint', the text ' add' or ' (' in their names, relationships with the word 'foreign', columns with the text 'key ' or an open parenthesis, primary keys with blanks, conditions with ' as ', tables with a primary key but no column, and tables in another schema than the parser's (witnesses)."
  },
  {
   "property": "C28",
   "status": "partial",
   "theorems": [
    "Verif.Props.C28_second_trip_partial",
    "Verif.Props.C28_type_text"
   ],
   "note": "Proved under the hypotheses of C27 and names of the database and the schema of the same kind. The full claim is false: a type that begins with VARCHAR can hide a column that settles only on the second trip (C28_type_text)."
  },
  {
   "property": "C29",
   "status": "proved",
   "theorems": [
    "Verif.Props.C29_type_is_valid",
    "Verif.Props.C29_raises_exactly"
   ],
   "note": "For every type text; MalformedNumber is a text-level specification of NUMBER with bad arguments."
  },
  {
   "property": "C30",
   "status": "proved",
   "theorems": [
    "Verif.Props.C30_case_insensitive",
    "Verif.Props.C30_trailing_text"
   ],
   "note": "Case and text after the first closing parenthesis."
  },
  {
   "property": "C31",
   "status": "partial",
   "theorems": [
    "Verif.Props.C31_attached_partial",
    "Verif.Props.C31_line_ends_partial",
    "Verif.Props.C31_own_line_partial",
    "Verif.Props.C31_comment_releases",
    "Verif.Props.C31_comment_separates",
    "Verif.Props.C31_comment_after_dash",
    "Verif.Props.C31_exactly"
   ],
   "note": "Proved for comments attached to code (any file), at line ends after blanks (no block comments), and on own lines (no block comments, at most one semicolon per earlier line). C31_exactly: with comments on own lines, whatever else is in the file, the statements stay the same if and only if everything that is found too late is behind the comment, and the comment keeps no code apart in a statement that is read, or is in a block comment. The general claim is false: C31_comment_releases, C31_comment_separates, C31_comment_after_dash."
  },
  {
   "property": "C32",
   "status": "partial",
   "theorems": [
    "Verif.Props.C32_spacing_partial",
    "Verif.Props.C32_blank_lines_partial",
    "Verif.Props.C32_blank_line_releases",
    "Verif.Props.C32_blank_line_separates",
    "Verif.Props.C32_exactly"
   ],
   "note": "Blanks and tabs inside lines: proved for every file. Blank lines: proved without block comments and with at most one semicolon per earlier line; C32_exactly gives the condition for every file, as for C31. The general claim is false: C32_blank_line_releases, C32_blank_line_separates."
  },
  {
   "property": "C33",
   "status": "partial",
   "theorems": [
    "Verif.Props.C33_statements_partial",
    "Verif.Props.C33_one_per_line_partial",
    "Verif.Props.C33_statements_lost",
    "Verif.Props.C33_batch_lines_lost",
    "Verif.Props.C33_exactly"
   ],
   "note": "For lines without comment signs and not starting with GO: what is read is an initial part of the terminated texts, with an exact condition for all of them. The general claim is false: C33_statements_lost, C33_batch_lines_lost. C33_exactly gives the condition for every text file, with comments and GO lines."
  },
  {
   "property": "C34",
   "status": "partial",
   "theorems": [
    "Verif.Props.C34_exactly",
    "Verif.Props.C34_alter_partial",
    "Verif.Props.C34_alter_taken_for_create"
   ],
   "note": "C34_exactly: for every statement and every parsed database the claim holds if and only if the statement is not taken for one that creates a table. For every ALTER TABLE statement without the words CREATE TABLE or CREATE DATABASE; with them the claim is false (witness C34_alter_taken_for_create)."
  },
  {
   "property": "C35",
   "status": "partial",
   "theorems": [
    "Verif.Props.C35_create_table_partial",
    "Verif.Props.C35_key_column_lost",
    "Verif.Props.C35_malformed_number",
    "Verif.Props.C35_if_not_exists",
    "Verif.Props.C35_comma_in_name",
    "Verif.Props.C35_partition_takes_column"
   ],
   "note": "Proved for every number of declarations, all quoting styles, sized types, white space around the fields and dotted table names. Left out: names with commas, parentheses or brackets, declarations with the text 'key ' and a closing parenthesis after the list; the general claim is false there: C35_key_column_lost, C35_comma_in_name, C35_partition_takes_column, C35_if_not_exists, C35_malformed_number."
  },
  {
   "property": "C36",
   "status": "proved",
   "theorems": [
    "Verif.Props.C36_parsed_database_consistent"
   ],
   "note": "Every database returned by parse_ddl, for every file content."
  },
  {
   "property": "C37",
   "status": "partial",
   "theorems": [
    "Verif.Props.C37_missing_file_partial",
    "Verif.Props.C37_no_standard_input"
   ],
   "note": "Missing file: proved. Reading standard input when no file name is given: false, TypeError (C37_no_standard_input)."
  },
  {
   "property": "C38",
   "status": "partial",
   "theorems": [
    "Verif.Props.C38_round_trip_partial",
    "Verif.Props.C38_relationship_names",
    "Verif.Props.C38_relationship_renamed",
    "Verif.Props.C38_empty_lost",
    "Verif.Props.C38_no_shards_lost",
    "Verif.Props.C38_comes_back",
    "Verif.Props.C38_exactly"
   ],
   "note": "Violated in general: relationship names are not read back (C38_relationship_names, C38_relationship_renamed), an empty database is lost (C38_empty_lost), a shard key with 0 shards is lost (C38_no_shards_lost). C38_exactly: for databases whose texts and numbers cells can hold these, and foreign keys without columns, are the only reasons why the tables do not come back the same; C38_comes_back says what comes back in any case. Texts must be such that openpyxl/xlrd return them unchanged (plainText); what comes back for other cells is arbitrary."
  },
  {
   "property": "C39",
   "status": "partial",
   "theorems": [
    "Verif.Props.C39_same_cells",
    "Verif.Props.C39_reordered_partial",
    "Verif.Props.C39_added",
    "Verif.Props.C39_double_header",
    "Verif.Props.C39_exactly"
   ],
   "note": "Added columns: proved in full (C39_added), also with a header that is needed but not looked under and already there. Reordering: violated if a header the reader looks under occurs twice (C39_double_header); C39_exactly: with the others at most once, the order can matter exactly for the 20 headers it looks under (the other 10 must only be there). C39_same_cells is the general form."
  },
  {
   "property": "C40",
   "status": "proved",
   "theorems": [
    "Verif.Props.C40_misshaped",
    "Verif.Props.C40_shaped",
    "Verif.Props.C40_empty_sheet"
   ],
   "note": "Workbooks whose needed sheets have a header row; a needed sheet without any row raises IndexError (C40_empty_sheet)."
  },
  {
   "property": "C41",
   "status": "partial",
   "theorems": [
    "Verif.Props.C41_same_tql_partial",
    "Verif.Props.C41_built_partial",
    "Verif.Props.C41_schema_lost",
    "Verif.Props.C41_exactly"
   ],
   "note": "As C38; with create_db the schemas must be those of the tables, which holds for databases built by adding different tables (C41_built_partial) and fails for others (C41_schema_lost). C41_exactly: for names without line breaks the TQL is the same for all options exactly if the schemas other than the default one are those of the tables in the order of their first use."
  },
  {
   "property": "C42",
   "status": "proved",
   "theorems": [
    "Verif.Props.C42_created",
    "Verif.Props.C42_contents",
    "Verif.Props.C42_local",
    "Verif.Props.C42_unknown_database"
   ],
   "note": "Statement on every successful run: names and order (C42_created), contents from the rows that name the table (C42_contents), independence of all other rows (C42_local), rows of unknown databases without effect (C42_unknown_database). Numeric cells used as names are outside the model."
  },
  {
   "property": "C43",
   "status": "partial",
   "theorems": [
    "Verif.Props.C43_skipped_partial",
    "Verif.Props.C43_relationships_raise",
    "Verif.Props.C43_attribute_error",
    "Verif.Props.C43_whenever_read"
   ],
   "note": "Violated for the sheet Relationships: such a row always makes the reader raise (C43_relationships_raise, C43_attribute_error). Holds for Columns and Foreign Keys. C43_whenever_read: if the workbook can be read at all, rows of all three sheets that name unknown tables make no difference."
  },
  {
   "property": "C44",
   "status": "proved",
   "theorems": [
    "Verif.Props.C44_round_trip",
    "Verif.Props.C44_equal"
   ],
   "note": "Every dictionary of texts the file format can hold comes back; conditions on keys and values are in the statement."
  },
  {
   "property": "C45",
   "status": "proved",
   "theorems": [
    "Verif.Props.C45_last_setting_wins",
    "Verif.Props.C45_unreadable",
    "Verif.Props.C45_undecodable"
   ],
   "note": "Every file: the last line that sets a key wins, unreadable files leave the settings unchanged. A file that cannot be decoded raises and leaves the settings before (C45_undecodable)."
  },
  {
   "property": "C46",
   "status": "partial",
   "theorems": [
    "Verif.Props.C46_long_chain_raises",
    "Verif.Props.C46_review_cfg_raises",
    "Verif.Props.C46_long_chain_partial",
    "Verif.Props.C46_exactly",
    "Verif.Props.C46_file_exactly",
    "Verif.Props.C46_sharding_exactly",
    "Verif.Props.C46_sharding_raises",
    "Verif.Props.C46_sharding_partial"
   ],
   "note": "Violated: loaded values are texts, so the comparison raises TypeError (C46_long_chain_raises, C46_sharding_raises, witness with review.cfg). Proved: no exception if the keys are unset or set to numbers from Python code. C46_exactly, C46_file_exactly and C46_sharding_exactly say exactly when the reviews raise."
  },
  {
   "property": "C47",
   "status": "proved",
   "theorems": [
    "Verif.Props.C47_circular_exact"
   ],
   "note": "For every set order and enough rounds of the loop (number of tables + 2)."
  },
  {
   "property": "C48",
   "status": "proved",
   "theorems": [
    "Verif.Props.C48_dangling_exact"
   ],
   "note": "For every set order."
  },
  {
   "property": "C49",
   "status": "proved",
   "theorems": [
    "Verif.Props.C49_long_chains_exact",
    "Verif.Props.C49_enough_stack",
    "Verif.Props.C49_stack",
    "Verif.Props.C49_dangling"
   ],
   "note": "For every set order; recursion depth is a parameter, C49_stack covers running out of it. C49_dangling: on a database with a dangling reference, and on no other, the review raises KeyError."
  },
  {
   "property": "C50",
   "status": "proved",
   "theorems": [
    "Verif.Props.C50_missing_pks"
   ],
   "note": "Every database."
  },
  {
   "property": "C51",
   "status": "proved",
   "theorems": [
    "Verif.Props.C51_raises_exactly",
    "Verif.Props.C51_thresholds",
    "Verif.Props.C51_exact",
    "Verif.Props.C51_rounding",
    "Verif.Props.C51_zero_shards"
   ],
   "note": "Every statistics answer with numbers up to 2^500 and at least one shard, for any numeric limits, with the quotients as the code has them: rational numbers rounded to the nearest double (C51_thresholds). Whole-number limits, the default skew limit and fewer than 2^50 rows: the findings are those of exact quotients (C51_exact); beyond that they can differ (C51_rounding). Zero shards raise ZeroDivisionError (C51_zero_shards). C51_raises_exactly: with limits that are numbers the first row with a text that is no number gives ValueError and the first without shards ZeroDivisionError; otherwise the review reports."
  },
  {
   "property": "C52",
   "status": "partial",
   "theorems": [
    "Verif.Props.C52_join_cardinality_partial",
    "Verif.Props.C52_no_columns_raises",
    "Verif.Props.C52_short_key_raises",
    "Verif.Props.C52_exactly"
   ],
   "note": "C52_exactly: the review ends with a report if and only if every join can be asked about (the target exists, both tables have a primary key or columns, to-keys are at least as long as from-keys), and the report is then exactly the verdicts, for every server. Otherwise it raises (witnesses C52_no_columns_raises, C52_short_key_raises)."
  },
  {
   "property": "C53",
   "status": "proved",
   "theorems": [
    "Verif.Props.C53_join_condition"
   ],
   "note": "Every foreign key with equally long column lists and an existing target."
  },
  {
   "property": "C54",
   "status": "proved",
   "theorems": [
    "Verif.Props.C54_worksheet_joins",
    "Verif.Props.C54_tests_foreign_column"
   ],
   "note": "Exact characterisation. C54_tests_foreign_column: the query tests a from-column in the to-table, so on real data the answer may be meaningless."
  },
  {
   "property": "C55",
   "status": "partial",
   "theorems": [
    "Verif.Props.C55_exactly",
    "Verif.Props.C55_applicable_partial",
    "Verif.Props.C55_database_needed",
    "Verif.Props.C55_no_input_not_called"
   ],
   "note": "Every review function must take one of the four known inputs; one that takes none is never called (C55_no_input_not_called). C55_exactly says what is called and returned for every module of reviews."
  },
  {
   "property": "C56",
   "status": "partial",
   "theorems": [
    "Verif.Props.C56_sound_partial",
    "Verif.Props.C56_acyclic_partial",
    "Verif.Props.C56_cyclic_never_returns",
    "Verif.Props.C56_exactly"
   ],
   "note": "C56_exactly: it answers no iff the start is barren (neither the target nor a circle nor a name without an entry can be reached), and yes iff there is a way to the target on which everything listed before the names taken is barren. So the claim is violated on cyclic maps: no recursion depth suffices (C56_cyclic_never_returns). Sound always, complete on acyclic maps."
  },
  {
   "property": "C57",
   "status": "proved",
   "theorems": [
    "Verif.Props.C57_every_id",
    "Verif.Props.C57_id_exact",
    "Verif.Props.C57_keeps_order",
    "Verif.Props.C57_get_table",
    "Verif.Props.C57_column_id",
    "Verif.Props.C57_formula_id",
    "Verif.Props.C57_no_source",
    "Verif.Props.C57_property"
   ],
   "note": "Every sequence of additions and every column id; ids without :: make get_source raise IndexError (C57_no_source)."
  },
  {
   "property": "C58",
   "status": "partial",
   "theorems": [
    "Verif.Props.C58_exact_partial",
    "Verif.Props.C58_complete_partial",
    "Verif.Props.C58_formulas_dropped"
   ],
   "note": "Violated: a formula without name or expression and all formulas after it are dropped silently (C58_formulas_dropped). Exact otherwise. YAML syntax is not modelled: the statement starts from the loaded document."
  },
  {
   "property": "C59",
   "status": "proved",
   "theorems": [
    "Verif.Props.C59_other_files",
    "Verif.Props.C59_returns",
    "Verif.Props.C59_left_behind"
   ],
   "note": "C59_left_behind: if the answer cannot be parsed the temporary file stays, and a file of that name that was there before is lost. Two different spellings of a path count as two files."
  },
  {
   "property": "C60",
   "status": "proved",
   "theorems": [
    "Verif.Props.C60_convert",
    "Verif.Props.C60_convert_refused",
    "Verif.Props.C60_diff",
    "Verif.Props.C60_review",
    "Verif.Props.C60_admitted_and_raises",
    "Verif.Props.C60_review_version"
   ],
   "note": "C60_admitted_and_raises: some combinations the checks admit raise afterwards. C60_review_version: review_model --version alone prints the help."
  },
  {
   "property": "C61",
   "status": "proved",
   "theorems": [
    "Verif.Props.C61_first",
    "Verif.Props.C61_misshaped"
   ],
   "note": "First = named first in the sheet Tables. Workbooks whose cells make the reader raise return nothing (hypothesis hr)."
  },
  {
   "property": "C62",
   "status": "proved",
   "theorems": [
    "Verif.Props.C62_exactly",
    "Verif.Props.C62_sized_types",
    "Verif.Props.C62_number_scale",
    "Verif.Props.C62_number"
   ],
   "note": "Sized types of the type table and NUMBER by precision and scale; C62_exactly gives the type of every type text (Converts, Spec/Reading)."
  },
  {
   "property": "C63",
   "status": "partial",
   "theorems": [
    "Verif.Props.C63_shifted_partial",
    "Verif.Props.C63_unchanged_iff",
    "Verif.Props.C63_second_key_shifted"
   ],
   "note": "Violated for every file with more than one line: each later line gets one more blank in front (C63_unchanged_iff, C63_second_key_shifted); C63_shifted_partial is what holds."
  },
  {
   "property": "C64",
   "status": "proved",
   "theorems": [
    "Verif.Props.C64_only_outputs",
    "Verif.Props.C64_input_kept",
    "Verif.Props.C64_temporary_replaces"
   ],
   "note": "C64_temporary_replaces: the temporary file replaces a file of that name. Two different spellings of a path count as two files."
  },
  {
   "property": "C65",
   "status": "partial",
   "theorems": [
    "Verif.Props.C65_to_tql",
    "Verif.Props.C65_to_excel",
    "Verif.Props.C65_from_ddl",
    "Verif.Props.C65_via_excel_partial"
   ],
   "note": "To TQL and to Excel proved in full; the way through Excel (C65_via_excel_partial) only for databases the workbook can hold (see C38, C41)."
  },
  {
   "property": "C66",
   "status": "partial",
   "theorems": [
    "Verif.Props.C66_unreadable_partial",
    "Verif.Props.C66_no_database_partial",
    "Verif.Props.C66_truncated",
    "Verif.Props.C66_half_written",
    "Verif.Props.C66_exactly"
   ],
   "note": "Violated: with a missing input file the TQL file is emptied (C66_truncated), and a script is half written when the writer raises (C66_half_written). For runs that read no database C66_exactly gives the exact files that are changed: the TQL file, if nothing was raised while reading and validation was not asked for."
  },
  {
   "property": "C67",
   "status": "proved",
   "theorems": [
    "Verif.Props.C67_to_ts",
    "Verif.Props.C67_refused"
   ],
   "note": "The text goes through a file, which turns carriage returns into line ends; without them it is exactly the TQL. C67_refused: the temporary file stays if the server refuses."
  },
  {
   "property": "C68",
   "status": "partial",
   "theorems": [
    "Verif.Props.C68_option_unused",
    "Verif.Props.C68_case_reported"
   ],
   "note": "Violated: the option is never used (C68_option_unused, C68_case_reported)."
  },
  {
   "property": "C69",
   "status": "partial",
   "theorems": [
    "Verif.Props.C69_configuration_unused",
    "Verif.Props.C69_setting_lost"
   ],
   "note": "Violated: the file is only checked for existence (C69_configuration_unused, C69_setting_lost)."
  },
  {
   "property": "C70",
   "status": "partial",
   "theorems": [
    "Verif.Props.C70_same_file_partial",
    "Verif.Props.C70_sharded"
   ],
   "note": "Violated for sharded tables and foreign keys between differently named columns (C70_sharded); exact condition proved."
  },
  {
   "property": "C71",
   "status": "partial",
   "theorems": [
    "Verif.Props.C71_block_comments_partial",
    "Verif.Props.C71_glues",
    "Verif.Props.C71_dashes_hide_end",
    "Verif.Props.C71_batch_hides_end",
    "Verif.Props.C71_second_comment",
    "Verif.Props.C71_exactly"
   ],
   "note": "Proved for comments on lines of their own, of one line or several, when no line of code has more than one semicolon, and the line that ends a comment has no dashes before the end and does not begin with GO. C71_exactly: such a comment changes no statement if and only if everything that is found too late (more semicolons than lines) is behind it. The general claim is false: C71_glues, C71_dashes_hide_end, C71_batch_hides_end, C71_second_comment."
  },
  {
   "property": "C72",
   "status": "partial",
   "theorems": [
    "Verif.Props.C72_again_partial",
    "Verif.Props.C72_int"
   ],
   "note": "Proved for all case options when the printed names and conditions can be read back (see C27) and no column is of type INT. The general claim is false: C72_int, and the cases of C27."
  },
  {
   "property": "C73",
   "status": "partial",
   "theorems": [
    "Verif.Props.C73_converted_partial",
    "Verif.Props.C73_int"
   ],
   "note": "Exact condition proved when names and conditions can be read back (see C27) and no column is of type INT: no sharded table and only foreign keys between equally named columns, as for C70. The general claim is false: C73_int, C70_sharded."
  },
  {
   "property": "C74",
   "status": "partial",
   "theorems": [
    "Verif.Props.C74_foreign_keys_partial",
    "Verif.Props.C74_primary_key_partial",
    "Verif.Props.C74_relationship_partial",
    "Verif.Props.C74_script_partial",
    "Verif.Props.C74_second_add",
    "Verif.Props.C74_without_constraint",
    "Verif.Props.C74_without_blank",
    "Verif.Props.C74_bracket_cut",
    "Verif.Props.C74_key_options"
   ],
   "note": "Proved for primary keys, foreign keys (one or several constraints, named or not) and relationships, and for scripts of them, when the phrases the parser looks for stand only where the statement form has them. Names may be spelled with quotes and brackets anywhere in them. The general claim is false: C74_second_add, C74_without_constraint, C74_without_blank, C74_bracket_cut, C74_key_options."
  },
  {
   "property": "C75",
   "status": "partial",
   "theorems": [
    "Verif.Props.C75_counts_partial",
    "Verif.Props.C75_agrees_partial",
    "Verif.Props.C75_exactly",
    "Verif.Props.C75_letter_case",
    "Verif.Props.C75_header_name",
    "Verif.Props.C75_wildcard"
   ],
   "note": "Proved for databases whose names the spreadsheet program compares as texts without regard to letter case, without names that differ in letter case only and without tables named like a header. The formulas are given a meaning (Spec/Formulas.lean), with the program's comparison as a parameter. C75_exactly says for every program that finds a name in a cell with that name, and every database, when each count is right: iff it takes neither the header nor another table or name for the table. The general claim is false: C75_letter_case, C75_header_name, C75_wildcard."
  },
  {
   "property": "C76",
   "status": "partial",
   "theorems": [
    "Verif.Props.C76_alters_partial",
    "Verif.Props.C76_raises",
    "Verif.Props.C76_primary_key",
    "Verif.Props.C76_exactly"
   ],
   "note": "C76_raises is exact, and so is C76_exactly: for files that can be quoted and one of the two options, the script is complete if and only if no foreign key takes the name of an old relationship, foreign keys not told apart are the same, new tables have no foreign keys and relationships, and no primary key is added. The migration is proved under the conditions of C17 and C18 that parsed files do not meet by themselves: names and conditions that can be quoted, foreign keys told apart, new tables without foreign keys and relationships, no new primary keys. The general claim is false: C76_primary_key. The line print(args) writes first is the subject of C93."
  },
  {
   "property": "C77",
   "status": "partial",
   "theorems": [
    "Verif.Props.C77_reported_partial",
    "Verif.Props.C77_no_false_alarm",
    "Verif.Props.C77_documented",
    "Verif.Props.C77_missing",
    "Verif.Props.C77_true",
    "Verif.Props.C77_hash",
    "Verif.Props.C77_create",
    "Verif.Props.C77_script_partial",
    "Verif.Props.C77_file_partial",
    "Verif.Props.C77_no_file",
    "Verif.Props.C77_ignored",
    "Verif.Props.C77_no_constraint",
    "Verif.Props.C77_empty_name"
   ],
   "note": "Proved for statements that add a primary key, foreign keys with the word CONSTRAINT, or a relationship; the truth of every message (C77_true) is proved for all ALTER TABLE statements. Statements that the parser does not know are dropped without a message: C77_ignored, C77_no_constraint, C77_empty_name. C102 gives the messages of every statement; C102_silent says exactly about which ALTER TABLE statements nothing is said."
  },
  {
   "property": "C78",
   "status": "partial",
   "theorems": [
    "Verif.Props.C78_line_injective",
    "Verif.Props.C78_listing_partial",
    "Verif.Props.C78_same_file",
    "Verif.Props.C78_moved_key"
   ],
   "note": "Complete for tables, columns, primary keys, dropped shard keys and relationships, with multiplicities. For foreign keys and added shard keys the comparison must tell the keys apart (see C16). The general claim is false: C78_same_file, C78_moved_key. The line print(args) writes first is the subject of C93."
  },
  {
   "property": "C79",
   "status": "partial",
   "theorems": [
    "Verif.Props.C79_create_partial",
    "Verif.Props.C79_sharded_partial",
    "Verif.Props.C79_backticks",
    "Verif.Props.C79_without_blank",
    "Verif.Props.C79_inline",
    "Verif.Props.C79_foreign_key",
    "Verif.Props.C79_or_replace",
    "Verif.Props.C79_number",
    "Verif.Props.C79_text_after_type"
   ],
   "note": "Proved for lists in which commas outside columns stand in unnested parentheses and the word KEY of a key is followed by a blank. With a partition clause the last field must not be a column of type NUMBER, or one followed by the name of a type, and no blank may follow the KEY of the clause if it is a column; CREATE OR REPLACE is excluded. The general claim is false: C79_backticks, C79_without_blank, C79_inline, C79_foreign_key, C79_or_replace, C79_number, C79_text_after_type."
  },
  {
   "property": "C80",
   "status": "partial",
   "theorems": [
    "Verif.Props.C80_script_partial",
    "Verif.Props.C80_quiet_partial",
    "Verif.Props.C80_file_partial",
    "Verif.Props.C80_commented_partial",
    "Verif.Props.C80_twice",
    "Verif.Props.C80_too_early"
   ],
   "note": "Proved for files whose statements have the forms of C79 and C74 (or are of no interest to the parser), whose lines have at most one semicolon and whose comments stand at ends of lines or on lines of their own, and in which no table is created twice. The general claim is false: C80_twice, C80_too_early, and the witnesses of C33, C71, C74 and C79. What becomes of a type is given by convertType, which C29 and C62 are about."
  },
  {
   "property": "C81",
   "status": "partial",
   "theorems": [
    "Verif.Props.C81_missing",
    "Verif.Props.C81_exact",
    "Verif.Props.C81_shards_unique",
    "Verif.Props.C81_rows_unique",
    "Verif.Props.C81_true",
    "Verif.Props.C81_silent_partial",
    "Verif.Props.C81_blank_database",
    "Verif.Props.C81_zero_shards",
    "Verif.Props.C81_lines_differ"
   ],
   "note": "Exact messages for every workbook with sheets and headers that is read to the end, and for every workbook without them; no false alarms for all workbooks. The general claim is false for the sheet Tables: C81_blank_database, C81_zero_shards. That a row naming a column twice is overwritten is C42."
  },
  {
   "property": "C82",
   "status": "partial",
   "theorems": [
    "Verif.Props.C82_file_partial",
    "Verif.Props.C82_server_partial",
    "Verif.Props.C82_diff_partial"
   ],
   "note": "Proved for the files of C80 whose names contain no double quote and whose foreign keys and relationships have different names, and for ddldiff under the conditions of C76. The general claim is false: C25_name_clash and the witnesses of C80 and C76. Under case options the database is the printed one, and names must not be printed alike (C25_collision). If it is well-formed, a server that checks references accepts the script (C88). A carriage return in the script is sent to a server as a line feed."
  },
  {
   "property": "C83",
   "status": "proved",
   "theorems": [
    "Verif.Props.C83_same",
    "Verif.Props.C83_steps",
    "Verif.Props.C83_arguments",
    "Verif.Props.C83_valid",
    "Verif.Props.C83_valid_iff",
    "Verif.Props.C83_databases",
    "Verif.Props.C83_standard_output",
    "Verif.Props.C83_answer"
   ],
   "note": "What the parser and the workbook reader report within their step is C77 and C81. The text of print(args) and of the usage message is not modelled."
  },
  {
   "property": "C84",
   "status": "partial",
   "theorems": [
    "Verif.Props.C84_messages",
    "Verif.Props.C84_determined",
    "Verif.Props.C84_silent",
    "Verif.Props.C84_unusable",
    "Verif.Props.C84_undecodable"
   ],
   "note": "Every file. The specification of the messages is shown to leave no choice (C84_determined). A file that cannot be decoded is not reported; an exception is raised instead (C84_undecodable)."
  },
  {
   "property": "C85",
   "status": "proved",
   "theorems": [
    "Verif.Props.C85_same",
    "Verif.Props.C85_queries",
    "Verif.Props.C85_worksheet",
    "Verif.Props.C85_reviewer",
    "Verif.Props.C85_announced"
   ],
   "note": "Every server. The worksheet part is about reviews that return; how Python prints nested YAML values is a parameter."
  },
  {
   "property": "C86",
   "status": "proved",
   "theorems": [
    "Verif.Props.C86_same",
    "Verif.Props.C86_arguments",
    "Verif.Props.C86_mistakes",
    "Verif.Props.C86_version",
    "Verif.Props.C86_listing",
    "Verif.Props.C86_results",
    "Verif.Props.C86_file",
    "Verif.Props.C86_dangling"
   ],
   "note": "C86_file and C86_dangling are about --database_file without server and worksheet; with a server the text is given by C86_same, C86_results and C85. The stack is assumed to have room for a path through all tables."
  },
  {
   "property": "C87",
   "status": "proved",
   "theorems": [
    "Verif.Props.C87_same",
    "Verif.Props.C87_arguments",
    "Verif.Props.C87_files"
   ],
   "note": "The line print(args) comes first; its text is in C93_diff_partial."
  },
  {
   "property": "C88",
   "status": "partial",
   "theorems": [
    "Verif.Props.C88_exactly",
    "Verif.Props.C88_validate",
    "Verif.Props.C88_printed_well_formed",
    "Verif.Props.C88_accepted_partial",
    "Verif.Props.C88_valid_accepted_partial",
    "Verif.Props.C88_upper_refused",
    "Verif.Props.C88_other_schema_refused"
   ],
   "note": "C88_exactly: a new server accepts the script if and only if the database as printed is well-formed, its keys stay within a schema and foreign keys are not called like relationships; C88_validate says this with validate in place of well-formedness (no case options). For databases whose printed form is well-formed, with keys that stay within a schema, names that can be printed and do not collide; without lower and upper case the printed form of a valid database is well-formed. The general claim is false: C88_upper_refused (key clauses keep the original case) and C88_other_schema_refused (the target of a foreign key is written with the schema of its own table), both for databases that validate accepts."
  },
  {
   "property": "C89",
   "status": "partial",
   "theorems": [
    "Verif.Props.C89_accepted_iff_partial",
    "Verif.Props.C89_exactly",
    "Verif.Props.C89_keys_accepted_partial",
    "Verif.Props.C89_script_accepted_iff_partial",
    "Verif.Props.C89_refused"
   ],
   "note": "C89_exactly: for databases a catalogue can hold, the server accepts the script and ends with the other version if and only if the list is complete (C17_exactly) and every entry is in order at its moment. Under the conditions of C17 (and for the text those of C18) the server accepts the script exactly if every entry is in order at its moment: tables with earlier names are new by then, those with later names old, the table itself has its new primary key and old columns. Always so when only shard keys, foreign keys and relationships are new (C89_keys_accepted_partial). The general claim is false: C89_refused."
  },
  {
   "property": "C90",
   "status": "partial",
   "theorems": [
    "Verif.Props.C90_about",
    "Verif.Props.C90_found",
    "Verif.Props.C90_file",
    "Verif.Props.C90_told_apart",
    "Verif.Props.C90_ambiguous"
   ],
   "note": "Every line is about a statement of the file and true of the database at that moment (C90_file, TrueReport in Spec/Reports), and contains the statement or names the unknown table (C90_found). Lines differ if the messages do, unless both give the text of an exception (C90_told_apart); there the claim is false, since names are quoted as they are (C90_ambiguous)."
  },
  {
   "property": "C91",
   "status": "partial",
   "theorems": [
    "Verif.Props.C91_read",
    "Verif.Props.C91_documented",
    "Verif.Props.C91_defaults",
    "Verif.Props.C91_convert",
    "Verif.Props.C91_diff",
    "Verif.Props.C91_review",
    "Verif.Props.C91_help",
    "Verif.Props.C91_refused",
    "Verif.Props.C91_sample_refused"
   ],
   "note": "Proved for every table of options of sensible shape, and for the three tables, against a model of argparse that was compared with the library on random command lines. Two documented command lines are refused: the sample with --ts_url and the option --show_descriptions (C91_sample_refused). C91_help says exactly when the help is printed and C91_refused that every other command line that cannot be read is refused."
  },
  {
   "property": "C92",
   "status": "partial",
   "theorems": [
    "Verif.Props.C92_review_hidden_partial",
    "Verif.Props.C92_convert_shows",
    "Verif.Props.C92_review_shows",
    "Verif.Props.C92_hidden_partial"
   ],
   "note": "False: every run of convert_ddl and review_model that passes the check of its arguments prints the password, given or default (C92_convert_shows, C92_review_shows). Runs with insufficient arguments print nothing (C92_hidden_partial), or only the help (C92_review_hidden_partial), to the standard output."
  },
  {
   "property": "C93",
   "status": "partial",
   "theorems": [
    "Verif.Props.C93_no_script",
    "Verif.Props.C93_convert_partial",
    "Verif.Props.C93_diff_partial"
   ],
   "note": "False: no standard output can be read as a script with statements (C93_no_script), since the arguments are printed first. The script is all that comes after the announcements (C93_convert_partial), and ddldiff prints the arguments and then exactly the text of C87 (C93_diff_partial)."
  },
  {
   "property": "C94",
   "status": "partial",
   "theorems": [
    "Verif.Props.C94_unread",
    "Verif.Props.C94_convert",
    "Verif.Props.C94_diff",
    "Verif.Props.C94_review",
    "Verif.Props.C94_undocumented",
    "Verif.Props.C94_validation"
   ],
   "note": "The status is 2 exactly for refused command lines and 1 exactly for exceptions (C94_convert, C94_diff, C94_review). False for insufficient arguments and files of ddldiff and review_model that do not exist (C94_undocumented) and for invalid databases (C94_validation): the status is 0. A database that is not there although nothing was raised gives status 0 exactly if nothing was to be done with it (C94_unread)."
  },
  {
   "property": "C95",
   "status": "partial",
   "theorems": [
    "Verif.Props.C95_as_prefix_partial",
    "Verif.Props.C95_convert",
    "Verif.Props.C95_diff",
    "Verif.Props.C95_review",
    "Verif.Props.C95_partly_converted",
    "Verif.Props.C95_drops"
   ],
   "note": "The message is printed, and comes first (C95_as_prefix_partial, C95_convert, C95_diff, C95_review). The rest is false: the three programs do what they do with a file that has only the lines before (same theorems); convert_ddl replaces the outputs and ends with status 0 (C95_partly_converted), ddldiff tells to drop the tables that were not read (C95_drops)."
  },
  {
   "property": "C96",
   "status": "proved",
   "theorems": [
    "Verif.Props.C96_statements",
    "Verif.Props.C96_names",
    "Verif.Props.C96_tables",
    "Verif.Props.C96_columns",
    "Verif.Props.C96_primary",
    "Verif.Props.C96_shard",
    "Verif.Props.C96_foreign",
    "Verif.Props.C96_relationships",
    "Verif.Props.C96_conditions",
    "Verif.Props.C96_lost"
   ],
   "note": "Both directions, for each kind of name by itself: C96_tables, C96_columns, C96_primary, C96_shard, C96_foreign (the four names of a foreign key together), C96_relationships, C96_conditions; C96_names puts the first direction together for whole databases, C96_lost is its contraposition. C96_statements is about the statements."
  },
  {
   "property": "C97",
   "status": "partial",
   "theorems": [
    "Verif.Props.C97_primary_key_partial",
    "Verif.Props.C97_other",
    "Verif.Props.C97_key_lost"
   ],
   "note": "Violated: a value that is neither a text nor a list raises ValueError after the primary key is emptied (C97_other, C97_key_lost). Proved: all other calls, in any number."
  },
  {
   "property": "C98",
   "status": "proved",
   "theorems": [
    "Verif.Props.C98_convert",
    "Verif.Props.C98_workbook",
    "Verif.Props.C98_server",
    "Verif.Props.C98_silent",
    "Verif.Props.C98_arguments",
    "Verif.Props.C98_diff",
    "Verif.Props.C98_review"
   ],
   "note": "What the readers report is parseReports and readXlsTold, about which C79-C81 and C90 speak. review_model with a server also reports failing queries and skipped joins there (C86); tracebacks are not modelled."
  },
  {
   "property": "C99",
   "status": "proved",
   "theorems": [
    "Verif.Props.C99_exactly",
    "Verif.Props.C99_statement",
    "Verif.Props.C99_kinds",
    "Verif.Props.C99_left",
    "Verif.Props.C99_convert",
    "Verif.Props.C99_diff"
   ],
   "note": "Breaks (Spec/Breaks) says which fields a statement has and which of them cannot be read, without reference to the parser; the statements of a file are those of getStatements (C100; C100_exception joins the two). Python's limit of 4300 digits for int() is not modelled."
  },
  {
   "property": "C100",
   "status": "proved",
   "theorems": [
    "Verif.Props.C100_exactly",
    "Verif.Props.C100_number",
    "Verif.Props.C100_parse",
    "Verif.Props.C100_exception"
   ],
   "note": "Every file, no hypotheses: FileStatements (Spec/Statements) is the description of the property as a relation on texts. C100_number gives the number of lost statements, C100_parse says that nothing else of the file matters, C100_exception puts C99 on top of it. The text layer of open (decoding) is not modelled."
  },
  {
   "property": "C101",
   "status": "proved",
   "theorems": [
    "Verif.Props.C101_create",
    "Verif.Props.C101_one_table",
    "Verif.Props.C101_alter",
    "Verif.Props.C101_statement",
    "Verif.Props.C101_reads",
    "Verif.Props.C101_file",
    "Verif.Props.C101_determined"
   ],
   "note": "Every text, no hypothesis on its form: Does, TableBuilt, Changes and Converts (Spec/Reading) are relations on texts, with shapes in place of patterns (Longest: each gap as long as possible). C101_file says what parse_ddl returns and leaves behind for every text file, together with C99 (exceptions) and C100 (statements). C101_statement and C101_alter assume that no two tables of the database are filed under the same name, which every Python dict satisfies. Case is ASCII; int() has no limit of digits."
  },
  {
   "property": "C102",
   "status": "proved",
   "theorems": [
    "Verif.Props.C102_statement",
    "Verif.Props.C102_file",
    "Verif.Props.C102_undecodable",
    "Verif.Props.C102_determined",
    "Verif.Props.C102_silent"
   ],
   "note": "Every text, no hypothesis on its form: Tells and TellAll (Spec/Messages) are relations on texts and tables, total and functional (C102_determined). Reasons are the texts of Python's exceptions as of the Python 3 in use. The Nodup hypothesis holds of every Python dict. The text of each message is Report.text (C90)."
  },
  {
   "property": "C103",
   "status": "proved",
   "theorems": [
    "Verif.Props.C103_exactly",
    "Verif.Props.C103_reads",
    "Verif.Props.C103_raises",
    "Verif.Props.C103_unique",
    "Verif.Props.C103_texts"
   ],
   "note": "For every workbook: an iff with a relational specification of the outcome (exception of the first row that fails, or the databases described). Numbers used as names are outside the model and are marked as such in the specification."
  },
  {
   "property": "C104",
   "status": "proved",
   "theorems": [
    "Verif.Props.C104_exactly",
    "Verif.Props.C104_outcome"
   ],
   "note": "An equivalence: the messages of a workbook are those the relation BookSays gives, including runs that end in an exception. Runs in which a number is used as a name (`.unmodelled`) are excluded, as in C103."
  },
  {
   "property": "C105",
   "status": "proved",
   "theorems": [
    "Verif.Props.C105_exactly",
    "Verif.Props.C105_one",
    "Verif.Props.C105_kinds"
   ],
   "note": "The YAML syntax is not modelled: the document is the value safe_load returns. Properties of the worksheet given as a list of pairs with a key that is no text are outside the model (error value unmodelled); C105_kinds leaves them out."
  },
  {
   "property": "C106",
   "status": "proved",
   "theorems": [
    "Verif.Props.C106_calls",
    "Verif.Props.C106_last_set",
    "Verif.Props.C106_equal"
   ],
   "note": "Values are integers, floats and texts, as in the model of configurations; other values the code could store are outside the model."
  },
  {
   "property": "C107",
   "status": "proved",
   "theorems": [
    "Verif.Props.C107_all_added",
    "Verif.Props.C107_calls"
   ],
   "note": "The level is one of the three constants of the class; an own text as level is outside the model."
  },
  {
   "property": "C108",
   "status": "proved",
   "theorems": [
    "Verif.Props.C108_comes_back",
    "Verif.Props.C108_exactly",
    "Verif.Props.C108_loaded",
    "Verif.Props.C108_number"
   ],
   "note": "The file can be opened for writing; encoding errors are not modelled. C108_number: a number comes back as a text, so such a configuration is not equal."
  },
  {
   "property": "C109",
   "status": "proved",
   "theorems": [
    "Verif.Props.C109_drop",
    "Verif.Props.C109_add",
    "Verif.Props.C109_put",
    "Verif.Props.C109_order"
   ],
   "note": "Databases built with the API (ApiDb); the tables are values, so changes to a table object after it was added are not seen."
  },
  {
   "property": "C110",
   "status": "proved",
   "theorems": [
    "Verif.Props.C110_reviews_end",
    "Verif.Props.C110_no_columns"
   ],
   "note": "The recursion of the long chain review needs room for as many steps as there are tables (recursion limit as in C49); limits loaded from a file are texts and raise (C46). C110_no_columns: why each table must have a column."
  },
  {
   "property": "C111",
   "status": "proved",
   "theorems": [
    "Verif.Props.C111_tables",
    "Verif.Props.C111_inside",
    "Verif.Props.C111_scripts"
   ],
   "note": "The order within the primary key and the shard key is kept: there it means something. C111_inside is about the statements, since the reported differences hold the table objects themselves."
  }
 ]
}