NOTES.update({
'C01':('partial','proved for stable catalogs (hypotheses on source and target only, Spec/Stable.lean) and for create/drop; eleven kernel-checked counterexamples show where the unrestricted claim is false of the code'),
'C02':('proved','both for equal states and for states equal up to listing order'),
'C03':('proved','footprint of the whole script: drops, renames and addressed objects'),
'C04':('proved','all four permissions; witness that constraints of a kept schema are dropped anyway'),
'C05':('partial','ANSI/PostgreSQL, MySQL, Oracle, Delta, Snowflake and SQL Server column alteration under side conditions; witnesses for identity-to-nullable and Snowflake timestamp default'),
'C06':('partial','all column and constraint changes; primary key changes are silently ignored by the code (witness)'),
'C07':('proved',''),
'C08':('proved',''),
'C12':('partial','every prefix of the script leaves a consistent database under the stability hypotheses; witness for arrays of foreign types'),
'C13':('partial','one schema, or several whose reverse references are absent; witness that two schemas fail'),
'C15':('proved','local, qualified, prefixed and MySQL back-quoted identifiers; GlobalId is printed raw by design'),
'C16':('partial','proved for the standard lexical rules; under MySQL rules false for backslashes (witness C16_quote_mysql_fails)'),
'C17':('partial','proved for standard literals; MySQL: namespaces without backslash'),
'C18':('partial','PostgreSQL in full; Delta and Snowflake for descriptions without NUL (witnesses for NUL followed by octal digits)'),
'C19':('partial','qualified names in full; prefixed names collide in general (witness), proved for plain namespace names'),
'C20':('partial','false for a semicolon at a line end inside a statement (witness); proved otherwise'),
'C38':('proved','any history of add/remove/reorder/sort'),
})
NOTES.update({
'C09':('proved',''),
'C10':('partial','PostgreSQL and MySQL under the stated conditions (labels are in the lookup table, the lookup table is another table); false for columns that are NOT NULL (C10_not_null_column_refused) and for the other dialects, which forget the values (C10_other_dialects_forget)'),
'C11':('partial','removed labels, changed constraints and SQL Server identity are refused, silence means agreement; a changed primary key is silently ignored (C11_primary_key_change_ignored)'),
})

NOTES.update({
"C37": ("proved", "Namespace.merge and Catalog.merge: the result is the union (every lookup), the call raises exactly if some object has two definitions, merging is idempotent. C37_refused_merge_not_undone: a refused merge keeps what was added before."),
})

NOTES.update({
"C14": ("proved", "C14_exact_criterion: after any history of calls of which none misled the connection (Misled: three ways, in terms of the outcome and the database), one more call leaves a faithful model exactly if it does not mislead; on engines that undo a failed script and those that do not. C14_faithful: hence after all such histories; C14_later_calls: calls then do what they should. C14_discover_recovers and C14_synchronize_recovers: recovery from any belief. Findings: C14_failed_create_unfaithful, C14_failed_create_not_retried, C14_refused_target_forgets. Given: catalogs between which scripts do what they should (C01; C14_stable_manageable gives a condition) and that discovery describes (C14_discover_describes; proved for the queries of engines in C51, C52)."),
})

NOTES.update({
"C39": ("partial", "no schema is lost; each schema comes after those it refers to by columns, attributes and foreign keys; mutual references are refused; arrays of foreign types are not noticed (C39_array_not_noticed). The external topological sort is assumed to meet Spec.Sorts, which a verified sort shows to be satisfiable"),
})

NOTES.update({
"C21": ("proved", "for every list of records and every batch size; the transformations keep batches and records apart"),
"C22": ("partial", "upsert_rows, insert_rows (parameters counted by the driver) and copy for consistent labels; insert_data/upsert_data if the columns are known in the order of the fields; false otherwise: C22_insert_data_other_order_misplaced, C22_omitted_but_labelled_misplaced (silent), C22_identity_refused"),
})

NOTES.update({
    "C23": ("proved", "Streams of batches of records through lookup tables, for the insert-or-ignore statement of every dialect, any order of labels in the set and any order of the rows selected: stored keys resolve in the final table, existing assignments are kept, NULL stays NULL. Labels are always found and accepted if generated keys are new. Negative results: C23_supplied_key_refused, C23_null_list_refused (both are refusals, not wrong data)."),
    "C24": ("partial", "Proved for every table and content when all columns are supplied and the statement matches by the primary key only (Upsertable); C24_accepted says when no record is refused. Negative results show that the claim is false of the code beyond: identity keys with MERGE, other unique keys with MySQL and MERGE, repeated calls with unique values."),
    "C25": ("partial", "Proved for MERGE (all dialects but PostgreSQL and MySQL), and for those two if all value columns are supplied. C25_unsupplied_column_reset proves, for every table and record, that the claim is false of PostgreSQL and MySQL otherwise."),
    "C26": ("proved", "delete_rows, and insert-or-ignore in every dialect. Foreign keys of other tables that refer to deleted rows are not modelled."),
})

NOTES.update({
"C36": ("partial", "The factories are proved exact for every sequence of rows (C36_unique, C36_foreign, C36_foreign_refused, round trips). The queries that feed them are exact for PostgreSQL and MySQL; for Oracle composite foreign keys come out multiplied (C36_oracle_multiplies), and dialects using the information schema pair columns by position (C36_position_mispairs)."),
})

NOTES.update({
"C40": ("partial", "Proved for PostgreSQL and MySQL, for every behaviour of server and network. Oracle and SQL Server do not look at the mode: C40_oracle_always_plain, C40_mssql_never_verifies."),
"C41": ("partial", "C41_parse: every user and password (any Unicode text) survives a connection string; C41_round_trip_partial needs a lower-case domain name, a port other than 0, no empty texts, and a database name that needs no quoting; C41_database_not_unquoted proves that the round trip is false for every other database name."),
})

NOTES.update({
"C27": ("partial", "Scalar and tuple signatures for every dialect; data-class signatures for PostgreSQL, MySQL (C27_dict) and SQL Server (C27_object) if column names are distinct, with the exact condition for refusal. Oracle assigns by position: true only if columns come in field order (C27_oracle_partial), false otherwise (C27_oracle_swaps). C27_same_name_lost: columns with the same name are lost silently."),
"C28": ("partial", "For every codec that round-trips single records and for the tab-separated format of the external library (C28_file), provided that no record is an empty line; C28_truncated proves that otherwise the reader always stops early without an error."),
"C43": ("proved", "For every history of register/unregister calls, including refused ones."),
"C44": ("partial", "Distinct modules are sent to distinct names and unmapped modules are refused, for every accepted mapping; but None and the empty name are different names that denote the same schema (C44_default_and_empty), so C44_schemas needs that not both occur."),
})

NOTES.update({
"C29": ("partial", "compatible_type is defined exactly when all types are of one family, and does not depend on order or grouping; the result holds every value of every operand for the types of C29_no_loss_partial, with an exact criterion for integers (C29_integers). False beyond: unsigned integers (C29_unsigned_lost), bare CHAR (C29_char_lost), MySQL LONGTEXT (C29_longtext_lost); Oracle integers are refused (C29_oracle_integers_refused)."),
})

NOTES.update({
"C31": ("partial", "C31_exact: exact criterion for all eight fixed-width types and eight engines. False for uint16/uint32/uint64 without the extension types (C31_unsigned_too_small), true with them (C31_extra_types). Annotated integers: every list of annotations if signed and of 2, 4 or 8 bytes; false for Signed(False) and one byte."),
})

NOTES.update({
"C32": ("partial", "Proved for every set of data-classes and every combination of converter options, provided that no two tables get the same name: keys exist, foreign and discriminated keys resolve, types agree, and the tables are exactly those called for. C32_name_clash_fails: a join table silently replaces the table of a class of the same name."),
})

NOTES.update({
"C33": ("partial", "Lists in full (every owner, every list of items, up to order, which a table does not have). Sets: exactly if no item belongs to two owners (C33_sets); C33_shared_item_fails proves the claim false otherwise. C33_column_clash_fails: both references may get the same column name."),
})

NOTES.update({
"C34": ("partial", "Proved for every program that meets TypesDeclared, all engines and options, with the contents of the created types (C34_contents). False otherwise, with witnesses: enumerations with a single member, types of modules without entities, lists of structs on Delta, classes that are not data-classes."),
})

NOTES.update({
  "C35": ("partial", "Every foreign key, union, extensible enumeration, enumeration and range restriction yields a constraint (C35_foreign, C35_union, C35_extensible, "
    "C35_enum_relation, C35_enum_check, C35_range with C35_range_annotation), and all constraints of one table are kept since their names differ. Uniqueness is "
    "kept only on engines with foreign keys (C35_unique); the statement is false elsewhere (C35_unique_lost for Redshift, Snowflake and Delta), for Unique on a "
    "list field (C35_unique_list_fails), and names clash across the tables of a schema (C35_names_across_tables_fails)."),
})

NOTES.update({
"C42": ("partial", "For every stream of random choices: the number of objects, values of all fields within all declared bounds (C42_objects), integer keys are a permutation of 0..count-1 (C42_keys, C42_distinct), and generation succeeds (C42_succeeds). Missing, because false: keys ignore the range of their type (C42_key_range_fails), a range that refines a fixed-width type is ignored (C42_refined_range_fails), a minimum length above 255 is refused (C42_min_length_fails); uniqueness of other fields is not respected (C42_unique_fails)."),
})

NOTES.update({
"C30": ("partial", "C30_exactly_kept: for every data type and all parameters, on PostgreSQL (with arrays and user-defined types), MySQL, SQL Server and Oracle, an exact criterion for when the type is read as it was written, given a table of what the catalogs report (Spec/ServerTypes.lean, from the manuals). C30_python: the outcome for each Python type. The claim is false for the types outside Spec.Kept, e.g. integer ranges everywhere (C30_integer_range_fails), decimals on Oracle, bare decimals on MySQL/SQL Server, float on SQL Server and Oracle, timedelta on PostgreSQL, types named like standard ones (C30_user_type_fails), enum labels with quotes on MySQL (C30_mysql_enum)."),
})

NOTES.update({
"C45": ("partial", "C45_statement: for every statement of the model and every dialect, with any names, labels, comments, the text has exactly one reading as tokens, the tokens of the statement and a semicolon; C45_script: cutting the reading of a whole script at semicolons gives exactly its statements; C45_constant: nested constants. The exceptions are hypotheses, and false without them: backslashes in labels on MySQL, Delta and Snowflake (C45_label_fails, C16_quote_mysql_fails), quotes in schema names on SQL Server (C45_schema_name_fails); given SQL fragments (defaults, check conditions) must be lexable and without a semicolon. NUL in comments on Delta/Snowflake is excluded. Not modelled: differences in white space of single-constraint ALTER statements; comments in SQL; regular identifiers that need no quoting."),
})

NOTES.update({
"C46": ("partial", "For every pair of catalogs on PostgreSQL and MySQL (MySQL keeps the first line of a description): tables and columns (C46_descriptions_in_sync_partial, C46_descriptions_created) and, on PostgreSQL, composite types. Excluded since false: a converted column that keeps its description loses the comment (C46_comment_of_converted_column_is_lost); comments of members of composite types are written at creation only (C46_member_comments_fail); names that change their kind."),
})

NOTES.update({
"C47": ("proved", "C47_deploy composes conversion (C32-C35), ordering and emission (C01) for every engine and all options: every program that meets the conditions of the statement (Spec.Deployable) is deployed from an empty database, and the result is described field by field in Spec.Deployed, including the tables that join (IsJoin), lookup tables (IsLookupTable) and the types of the database. That the conditions cannot be dropped is shown by the C47_*_fails theorems (and C32_name_clash_fails, C33_column_clash_fails, C35_unique_list_fails), one program for each; only for the one about points in time as defaults on Snowflake this is not known (it stems from ALTER statements). External orderings (type_topological_sort, topological_sort) are assumed to satisfy OrdersClasses and Sorts, which are shown satisfiable; generated check conditions are read by an assumed reader, ReadsConditions, for which a concrete scanner is proved to qualify. The rows of lookup tables are in C50_created."),
})

NOTES.update({
"C48": ("partial", "Exact criteria for all engines and parameters, given the capacities of column types in Spec/Capacity.lean (from the manuals, trusted). Strings: C48_text, C48_length_exact, C48_ascii_exact; times: C48_datetime_exact, C48_time_exact, C48_time_precision; numbers: C48_decimal_exact, C48_decimal_precision, C48_float. The claim is false for: str on Redshift (256 bytes) and Trino; declared lengths that count bytes on Redshift, SQL Server, Oracle, and between 16384 and 65535 on MySQL; microseconds on MySQL and Trino; Decimal without a precision on all engines but PostgreSQL; Annotated[float, Precision] (C48_float_precision_fails)."),
"C31": ("partial", "C31_exact: exact criterion for all eight fixed-width types and eight engines; C31_int: plain int holds 64 bits everywhere. False for uint16/uint32/uint64 without the extension types (C31_unsigned_too_small), true with them (C31_extra_types). Annotated integers: every list of annotations if signed and of 2, 4 or 8 bytes; false for Signed(False) and one byte."),
})

NOTES.update({
"C49": ("proved", "For every pair of catalogs, all dialects and options, any rows: C49_data_kept, C49_data_converted, C49_no_row_lost_or_added, C49_other_tables_untouched. The effect of statements on rows is Spec/Rows.lean (trusted reading of SQL, parametrized by the engine's conversion of values); converting twice to the same type is assumed to change nothing (Settles). Whether the database accepts the script is C01 and C10. Columns converted from labels to keys are C10; dropping what the target lacks is the point of C02-C04."),
})

NOTES.update({
"C50": ("partial", "C50_created: every deployable program and engine with initialization of tables, creation in an empty database, string and integer labels, given that the database reads the constants as written (C16, C45). C50_new_table: the same for tables that appear in any schema change, also with data-class members. Missing because false: members added to an enumeration whose table exists are never inserted (C50_new_members_are_ignored). Without initialize_tables (the default) the table is created empty and labels are added with the data (C23)."),
"C10": ("proved", "C10_exact_criterion: for a table, exactly when the labels survive, with every dialect. C10_labels_become_keys (one table) and, for whole scripts with anything else changing, C10_new_lookup and C10_existing_lookup: on PostgreSQL and MySQL, for every table and data, if the script runs then every key resolves to the former label. The exceptions: other dialects forget the labels (C10_other_dialects_forget); a key column that is NOT NULL is refused if there are rows (C10_not_null_column_refused); on PostgreSQL labels that an existing lookup table lacks."),
})

# Properties that were restated exactly (see tools/restate.py; the first versions are kept in properties.jsonl as "unrestricted_claim").
NOTES.update({
'C05': ('proved', 'C05_alter_exactly: an equivalence for all dialects but SQL Server, the condition being Spec.Alterable; C05_alter_postgresql spells it out; C05_alter_exact_mssql and C05_mssql_identity_refused for SQL Server; C05_nothing_emitted_iff. The first version of the claim has no exceptions and is false.'),
'C11': ('proved', 'Refusals for whole catalogs, C11_silence_means_agreement, and (for every table) C06_primary_key_change_ignored. The first version of the claim includes primary keys and is false.'),
'C16': ('proved', 'C16_quote_reads_back, C16_quote_injective; equivalences C16_mysql_exact, C16_delta_exact, C16_snowflake_exact for the rules of these servers (Spec/Lex.lean).'),
'C17': ('proved', 'C17_drop_schema_matches_prefix (standard rules) and the equivalence C17_mysql_exact.'),
'C18': ('proved', 'PostgreSQL in full, equivalences for Delta and Snowflake, and what is stored in general.'),
'C19': ('proved', 'Qualified names in full, an equivalence for prefixed names.'),
'C20': ('proved', 'Equivalences for Redshift and Oracle, for scripts of any statements.'),
'C22': ('proved', 'C22_upsert, C22_copy (whenever accepted; C22_accepted says when), C22_insert_exact, C22_upsert_data_exact, C22_insert_data_exact. The misplacements are silent.'),
'C24': ('proved', 'C24_upsert, C24_idempotent, C24_accepted, C24_one_row_per_key under Upsertable, which is the condition in the statement; theorems C24_*_fails show that each part of it is needed.'),
'C25': ('proved', 'C25_merge, C25_value_columns_supplied, C25_unsupplied_column_reset (for every table without other unique keys).'),
'C27': ('proved', 'C27_scalar, C27_tuple, C27_dict, C27_object with exact conditions for refusal; C27_oracle_refused, C27_oracle_exact.'),
'C28': ('proved', 'C28_exact for any line codec, C28_file_exact and C28_header_exact for the tab-separated format of the external library.'),
'C30': ('proved', 'C30_exactly_kept is an equivalence, given a table of what the catalogs report (Spec/ServerTypes.lean, from the manuals, trusted); C30_python and others evaluate it for what programs may declare.'),
'C31': ('proved', 'C31_exact is an equivalence; C31_extra_types, C31_int, C31_annotated, and two theorems for annotations that do not fit.'),
'C32': ('proved', 'C32_resolves, C32_tables, C32_types for every set of data-classes and every combination of options; C32_name_clash_fails shows that the condition is needed.'),
'C33': ('proved', 'C33_lists in full; C33_sets is an equivalence.'),
'C35': ('proved', 'C35_unique and C35_unique_lost; C35_foreign, C35_union, C35_extensible, C35_enum_relation, C35_enum_check, C35_range with C35_range_annotation; C35_engines lists what engines have; C35_references_enforced, C35_enum_enforced say what the constraints mean for rows.'),
'C36': ('proved', 'C36_unique, C36_foreign, C36_foreign_refused for every sequence of rows, and round trips.'),
'C39': ('proved', 'C39_no_namespace_lost, C39_references_first, C39_mutual_references_refused. The external topological sort is assumed to meet Spec.Sorts, which a verified sort shows to be satisfiable.'),
'C40': ('proved', 'For every behaviour of server and network. That asyncpg treats ssl=None like a preference for TLS is a matter of the driver, which is not modelled.'),
'C41': ('proved', 'C41_password_hidden, C41_parse, C41_read_back and the equivalence C41_round_trip.'),
'C42': ('proved', 'For every stream of random choices: C42_objects, C42_keys, C42_distinct, C42_succeeds; the exceptions are proved, too.'),
'C44': ('proved', 'C44_accepted, C44_one_to_one, and the equivalence C44_schemas.'),
'C45': ('proved', 'C45_statement, C45_script, C45_constant: for every statement of the model, every dialect, any names, labels, comments (Clear: those of the statement). Not modelled: white space of single-constraint ALTER statements; comments in SQL; regular identifiers that need no quoting.'),
'C48': ('proved', 'Equivalences for all engines and parameters, given the capacities of column types in Spec/Capacity.lean (from the manuals, trusted).'),
'C50': ('proved', 'C50_created (string and integer labels, given that the database reads the constants as written: C16, C45), C50_new_table, C50_new_members_are_ignored. Without initialize_tables (the default) the table is created empty and labels are added with the data (C23).'),
})

NOTES.update({
'C51': ('proved', 'C51_exactly_readable (equivalence), C51_discovered, C51_discover_faithful, C51_settled; C51_condition_added_again, C51_default_exact and C51_default_never_settles are the findings. What the catalogs of PostgreSQL report for a schema is Spec/Explore.lean (Holds: trusted, from the manual); expressions of defaults are reported by an arbitrary function, for constants by Const.reported.'),
})

NOTES.update({
'C52': ('proved', 'Equivalences: C52_mysql_table, C52_mssql_table, C52_oracle_table (one table), C52_mysql_settled, C52_mssql_settled, C52_oracle_settled (whole databases: discovery succeeds and the comparison is empty exactly if ...), C52_not_changed (a call of synchronize). The others are the findings. What the catalogs report is Spec/Explorers.lean (trusted, from the manuals); how defaults are reported is an arbitrary function. Types without an entry in Spec/ServerTypes.lean are not covered.'),
})

NOTES.update({
'C53': ('proved', 'Equivalences C53_generated_iff (when a class is generated), C53_types_exact and C53_columns_exact (what comes back, every engine, every type without names of other types); C53_fields; findings C53_key_lost, C53_default_quoted, C53_reference_required. Not modelled: evaluation of forward references, generation of source code (python_types.py).'),
})

NOTES.update({
'C54': ('proved', 'Equivalences for objects (C54_extracted, C54_addresses, C54_enum) and records (C54_enum_rows, C54_json_rows), C54_rows, C54_null; findings C54_json_objects_fail, C54_set_fails, C54_delete_data and the negative sides of the equivalences. What columns store of parameters is trusted (Spec/Bind). For inserts in Redshift see C55.'),
'C55': ('proved', 'C55_exact is an equivalence; C55_bytes_fail. The reader of COPY (Spec/Copy) is trusted.'),
})

NOTES.update({
"C29": ("proved", "Equivalences: compatible_type is defined exactly when all types are of one kind (C29_defined), the common type holds every value of every member exactly when the types are Lossless (C29_exact, types of one dialect, integers with bounds included), and the result does not depend on grouping (C29_grouping) or order (C29_order). Where the claim is false: unsigned integers of the greatest width (C29_unsigned_lost), bare CHAR (C29_char_lost), MySQL LONGTEXT (C29_longtext_lost); Oracle integers are refused (C29_oracle_integers_refused)."),
})

NOTES.update({
'C06': ('proved', 'C06_exact_criterion is an equivalence, for every dialect and every consistent database with the source table: the script does what it is for iff TableSafe (Spec/Safe.lean) holds, whose clauses are those of the statement; C06_columns_and_constraints spells out the result; C06_primary_key_change_ignored. The DDL semantics is Spec/Ddl.lean (trusted).'),
})
NOTES.update({
'C01': ('proved', 'C01_exact_criterion is an equivalence for every dialect, every consistent source and every pair of well-formed catalogs: the script does what it is for iff CatSafe (Spec/Safe.lean), whose clauses are those of the statement; C01_one_namespace_criterion and C01_create_criterion are the corresponding equivalences for one schema and for an empty database; C01_failures_are_unsafe; C01_synchronize_if_stable gives conditions that do not depend on the order of namespaces. The unrestricted claim is false (Props/C01Fails.lean). The DDL semantics is Spec/Ddl.lean (trusted).'),
'C12': ('proved', 'C12_exact_criterion: every prefix runs, is consistent, the next statement is accepted, and the end is the target, iff CatSafe; C01_create_criterion for creation, where acceptance alone is characterized. Not characterized: scripts for a change that are accepted throughout but end in another state than the target (they violate the criterion, C06_primary_key_change_ignored).'),
'C13': ('proved', 'C13_exact_criterion is an equivalence for every catalog that describes a consistent database; C13_two_schemas_fails.'),
})

NOTES.update({
'C34': ('proved', 'C34_exact_criterion is an equivalence, for every accepted program and all options (C34_engine_criterion: its conditions on options hold for every generator); C34_created_types says which types are created; C34_types_resolve is the sufficient condition in closed form that C47 uses; C34_contents describes the contents of the created types. The _fails theorems are the findings.'),
})

NOTES.update({
'C46': ('proved', 'C46_executed_criterion is an equivalence for every pair of catalogs whose script the database executes (C46_exact_criterion: the same for scripts between catalogs in which names keep their kinds, whether executed or not); C46_comments_exact says what the comments are in any case; C46_executed_types for composite types; C46_member_comments_fail: comments of members of composite types, which the claim leaves out, are written at creation only.'),
})

NOTES.update({
'C56': ('proved', 'C56_exact_criterion is an equivalence for all sequences of wrappers; C56_key_recognized, C56_key_of_one_field for classes; findings C56_optional_identity_fails, C56_identity_key_fails. The typing module and strong_typing functions are modelled from their documentation.'),
'C57': ('proved', 'C57_make_entity and the exact condition C57_accepted; finding C57_factory_fails.'),
'C58': ('proved', 'C58_flat_fields is an equivalence; C58_distinct; findings C58_optional_fails, C58_clash_fails.'),
'C59': ('proved', 'C59_only_defaults, C59_scalar, C59_enum, C59_reference, C59_composite, C59_mandatory_columns_have_defaults, C59_engines; findings C59_mysql_fails, C59_date_fails, C59_label_for_key_fails.'),
})

NOTES.update({
'C60': ('proved', 'Equivalences for each engine with a driver: C60_cascading, C60_mssql_exact, C60_mysql_exact, C60_oracle_exact, C60_trino_exact, C60_create_schema; findings C60_others_fail, C60_prefix_fails (namespaces whose names begin with another and two underscores), C60_create_drop_fails, C60_forgotten_fails. The behaviour of servers (Spec/DropSchema) is trusted.'),
})

NOTES.update({
'C61': ('proved', 'Positions: C61_upsert, C61_delete, C61_insert_exact (finding C61_identity_shifted). Values: C61_mssql_integers, C61_oracle_integers_exact, C61_oracle_annotated, C61_mssql_text, C61_oracle_text, C61_decimal_precision, C61_mssql_decimal_exact, C61_mssql_time_exact, C61_oracle_time, C61_mssql_bytes, C61_declared_exact. What a declared parameter admits is from the manuals of ODBC and python-oracledb (Spec/Params, trusted); a driver may be more lenient.'),
})

NOTES.update({
'C62': ('proved', 'C62_tokens and C62_functions (tokens as in C45; the table must not be a bare global name other than a word, which no factory makes), C62_written, C62_trino_refused, C62_percent_exact (finding C62_percent_in_name), C62_condition (finding C62_identity_key_no_condition). Which statement is intended is in C22; percentFormat is the part of Python\'s % that concerns %s and %%.'),
})

NOTES.update({
'C63': ('proved', 'C63_returned_is_durable, C63_history (all histories), C63_whole_batches_exact, C63_copied_whole, C63_script_exact (equivalences over the engines that have a connection), C63_work, C63_upsert_retry (with the tables and statements of C24). Finding: C63_part_of_batch_committed_later. When drivers commit is from their manuals (Spec/Transact, trusted).'),
})

NOTES.update({
'C64': ('proved', 'C64_as_if_direct (refinement), C64_exact (the specification allows nothing else), C64_once, C64_returned_settled, C64_no_overlap, C64_all_end (no infinite schedule, no deadlock), C64_within. Findings: C64_shared_fails (two tasks on one connection: their functions may overlap), C64_cancel_blocks with C64_cancel_blocks_reached (cancelling a running call blocks the whole event loop until the function finishes), C64_open_cancelled_fails (a connection opened by a call that is cancelled is never closed). The behaviour of asyncio and concurrent.futures is a premise, stated at the head of Model/Dispatch.'),
})

NOTES.update({
'C65': ('proved', 'C65_labels_resolve (safety, for all interleavings), C65_one_key, C65_never_refused, C65_can_finish. A statement with one record is atomic in the model (an engine that lets two such statements race refuses one of them with a unique violation: a failed client here); programs that remove labels are outside the claim.'),
})

NOTES.update({
'C66': ('proved', 'C66_string, C66_enum, C66_dataclass, C66_module (positive part), C66_refused, C66_field_fails, C66_object_fails, C66_empty_fails, C66_keyword_fails (limits). What Python reads is specified in Spec/PyCode for the lines that occur; the text of types is a parameter (external formatter) with balanced brackets and strings; documentation strings of data classes with several lines are re-wrapped by external code and outside the claim.'),
})

NOTES.update({
'C67': ('proved', 'C67_exact (which types, with which result), C67_order, C67_accepted, C67_columns, C67_header, C67_reference, C67_limits. Unions are flat, as typing makes them (FlatUnion); the types are those of Model/PyTypes.'),
})

NOTES.update({
'C68': ('proved', 'C68_read, C68_password_cut, C68_injection, C68_ssl. How the driver manager reads a connection string is a specification (Spec/Odbc). Not yet tested against edited programs.'),
})
