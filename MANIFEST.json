{
 "claims": [
  {
   "property": "C01",
   "status": "proved",
   "theorems": [
    "PySqlSync.C01_synchronize_if_safe",
    "PySqlSync.C01_synchronize_one_namespace_if_safe",
    "PySqlSync.C01_synchronize_if_stable",
    "PySqlSync.C01_create_if_direct",
    "PySqlSync.C01_drop_if_apart",
    "PySqlSync.C01_exact_criterion",
    "PySqlSync.C01_one_namespace_criterion",
    "PySqlSync.C01_create_criterion",
    "PySqlSync.C01_failures_are_unsafe",
    "PySqlSync.C01_primary_key_change_fails",
    "PySqlSync.C01_drop_constrained_column_fails",
    "PySqlSync.C01_identity_to_nullable_fails",
    "PySqlSync.C01_constraint_on_converted_column_fails",
    "PySqlSync.C01_mssql_converted_default_fails",
    "PySqlSync.C01_foreign_key_to_later_namespace_fails",
    "PySqlSync.C01_drop_referenced_across_namespaces_fails",
    "PySqlSync.C01_drop_namespace_order_fails",
    "PySqlSync.C01_new_namespace_uses_new_type_fails",
    "PySqlSync.C01_table_to_enum_fails",
    "PySqlSync.C01_struct_order_fails"
   ],
   "note": "C01_exact_criterion is an equivalence for every dialect, every consistent source and every pair of well-formed catalogs: the script does what it is for iff CatSafe (Spec/Safe.lean), whose clauses are those of the statement; C01_one_namespace_criterion and C01_create_criterion are the corresponding equivalences for one schema and for an empty database; C01_failures_are_unsafe; C01_synchronize_if_stable gives conditions that do not depend on the order of namespaces. The unrestricted claim is false (Props/C01Fails.lean). The DDL semantics is Spec/Ddl.lean (trusted)."
  },
  {
   "property": "C02",
   "status": "proved",
   "theorems": [
    "PySqlSync.C02_nothing_to_do"
   ],
   "note": "both for equal states and for states equal up to listing order"
  },
  {
   "property": "C03",
   "status": "proved",
   "theorems": [
    "PySqlSync.C03_shared_table_is_not_dropped",
    "PySqlSync.C03_shared_schema_is_not_dropped",
    "PySqlSync.C03_shared_column_is_kept",
    "PySqlSync.C03_no_other_table_is_touched"
   ],
   "note": "footprint of the whole script: drops, renames and addressed objects"
  },
  {
   "property": "C04",
   "status": "proved",
   "theorems": [
    "PySqlSync.C04_every_drop_is_permitted",
    "PySqlSync.C04_no_table_dropped",
    "PySqlSync.C04_no_struct_dropped",
    "PySqlSync.C04_no_enum_dropped",
    "PySqlSync.C04_no_schema_dropped",
    "PySqlSync.C04_no_type_of_removed_schema_dropped",
    "PySqlSync.C04_constraints_of_kept_schema_dropped_anyway"
   ],
   "note": "all four permissions; witness that constraints of a kept schema are dropped anyway"
  },
  {
   "property": "C05",
   "status": "proved",
   "theorems": [
    "PySqlSync.C05_alter_exact",
    "PySqlSync.C05_alter_exact_mssql",
    "PySqlSync.C05_mssql_identity_refused",
    "PySqlSync.C05_nothing_emitted_iff",
    "PySqlSync.C05_identity_to_nullable_refused",
    "PySqlSync.C05_snowflake_timestamp_default",
    "PySqlSync.C05_alter_exactly",
    "PySqlSync.C05_alter_postgresql"
   ],
   "note": "C05_alter_exactly: an equivalence for all dialects but SQL Server, the condition being Spec.Alterable; C05_alter_postgresql spells it out; C05_alter_exact_mssql and C05_mssql_identity_refused for SQL Server; C05_nothing_emitted_iff. The first version of the claim has no exceptions and is false."
  },
  {
   "property": "C06",
   "status": "proved",
   "theorems": [
    "PySqlSync.C06_alter_table_safe",
    "PySqlSync.C06_columns_and_constraints",
    "PySqlSync.C06_primary_key_change_ignored",
    "PySqlSync.C06_exact_criterion"
   ],
   "note": "C06_exact_criterion is an equivalence, for every dialect and every consistent database with the source table: the script does what it is for iff TableSafe (Spec/Safe.lean) holds, whose clauses are those of the statement; C06_columns_and_constraints spells out the result; C06_primary_key_change_ignored. The DDL semantics is Spec/Ddl.lean (trusted)."
  },
  {
   "property": "C07",
   "status": "proved",
   "theorems": [
    "PySqlSync.C07_refused_iff",
    "PySqlSync.C07_not_refused",
    "PySqlSync.C07_adds_missing_values_in_order",
    "PySqlSync.C07_result_exact",
    "PySqlSync.C07_stored_values_stay_valid",
    "PySqlSync.C07_order"
   ],
   "note": ""
  },
  {
   "property": "C08",
   "status": "proved",
   "theorems": [
    "PySqlSync.C08_alter_struct_exact",
    "PySqlSync.C08_refused_iff",
    "PySqlSync.C08_nothing_emitted_iff"
   ],
   "note": ""
  },
  {
   "property": "C09",
   "status": "proved",
   "theorems": [
    "PySqlSync.C09_rename_create_fill_convert_drop",
    "PySqlSync.C09_type_and_table_coexist"
   ],
   "note": ""
  },
  {
   "property": "C10",
   "status": "proved",
   "theorems": [
    "PySqlSync.C10_labels_become_keys",
    "PySqlSync.C10_not_null_column_refused",
    "PySqlSync.C10_other_dialects_forget",
    "PySqlSync.C10_unchanged_column_keeps_data",
    "PySqlSync.C10_new_lookup",
    "PySqlSync.C10_existing_lookup",
    "PySqlSync.C10_exact_criterion"
   ],
   "note": "C10_exact_criterion: for a table, exactly when the labels survive, with every dialect. C10_labels_become_keys (one table) and, for whole scripts with anything else changing, C10_new_lookup and C10_existing_lookup: on PostgreSQL and MySQL, for every table and data, if the script runs then every key resolves to the former label. The exceptions: other dialects forget the labels (C10_other_dialects_forget); a key column that is NOT NULL is refused if there are rows (C10_not_null_column_refused); on PostgreSQL labels that an existing lookup table lacks."
  },
  {
   "property": "C11",
   "status": "proved",
   "theorems": [
    "PySqlSync.C11_removed_value_refused",
    "PySqlSync.C11_constraint_change_refused",
    "PySqlSync.C11_mssql_identity_refused",
    "PySqlSync.C11_silence_means_agreement",
    "PySqlSync.C11_primary_key_change_ignored"
   ],
   "note": "Refusals for whole catalogs, C11_silence_means_agreement, and (for every table) C06_primary_key_change_ignored. The first version of the claim includes primary keys and is false."
  },
  {
   "property": "C12",
   "status": "proved",
   "theorems": [
    "PySqlSync.C12_exact_criterion",
    "PySqlSync.C12_every_prefix_consistent_if_stable",
    "PySqlSync.C12_create_every_prefix_consistent_if_direct",
    "PySqlSync.C12_array_of_foreign_type_fails"
   ],
   "note": "C12_exact_criterion: every prefix runs, is consistent, the next statement is accepted, and the end is the target, iff CatSafe; C01_create_criterion for creation, where acceptance alone is characterized. Not characterized: scripts for a change that are accepted throughout but end in another state than the target (they violate the criterion, C06_primary_key_change_ignored)."
  },
  {
   "property": "C13",
   "status": "proved",
   "theorems": [
    "PySqlSync.C13_exact_criterion",
    "PySqlSync.C13_create_drop_if_apart",
    "PySqlSync.C13_two_schemas_fails"
   ],
   "note": "C13_exact_criterion is an equivalence for every catalog that describes a consistent database; C13_two_schemas_fails."
  },
  {
   "property": "C14",
   "status": "proved",
   "theorems": [
    "PySqlSync.C14_synchronize_recovers",
    "PySqlSync.C14_discover_recovers",
    "PySqlSync.C14_call_criterion",
    "PySqlSync.C14_faithful",
    "PySqlSync.C14_exact_criterion",
    "PySqlSync.C14_later_calls",
    "PySqlSync.C14_stable_manageable",
    "PySqlSync.C14_discover_describes",
    "PySqlSync.C14_failed_create_unfaithful",
    "PySqlSync.C14_failed_create_not_retried",
    "PySqlSync.C14_refused_target_forgets"
   ],
   "note": "C14_exact_criterion: after any history of calls of which none misled the connection (Misled: three ways, in terms of the outcome and the database), one more call leaves a faithful model exactly if it does not mislead; on engines that undo a failed script and those that do not. C14_faithful: hence after all such histories; C14_later_calls: calls then do what they should. C14_discover_recovers and C14_synchronize_recovers: recovery from any belief. Findings: C14_failed_create_unfaithful, C14_failed_create_not_retried, C14_refused_target_forgets. Given: catalogs between which scripts do what they should (C01; C14_stable_manageable gives a condition) and that discovery describes (C14_discover_describes; proved for the queries of engines in C51, C52)."
  },
  {
   "property": "C15",
   "status": "proved",
   "theorems": [
    "PySqlSync.C15_local_identifier_reads_back",
    "PySqlSync.C15_qualified_identifier_reads_back",
    "PySqlSync.C15_local_identifier_injective",
    "PySqlSync.C15_qualified_identifier_injective",
    "PySqlSync.C15_mysql_backquoted_reads_back"
   ],
   "note": "local, qualified, prefixed and MySQL back-quoted identifiers; GlobalId is printed raw by design"
  },
  {
   "property": "C16",
   "status": "proved",
   "theorems": [
    "PySqlSync.C16_quote_reads_back",
    "PySqlSync.C16_quote_injective",
    "PySqlSync.C16_mysql_exact",
    "PySqlSync.C16_mysql_plain",
    "PySqlSync.C16_quote_mysql_fails",
    "PySqlSync.C16_delta_exact",
    "PySqlSync.C16_snowflake_exact"
   ],
   "note": "C16_quote_reads_back, C16_quote_injective; equivalences C16_mysql_exact, C16_delta_exact, C16_snowflake_exact for the rules of these servers (Spec/Lex.lean)."
  },
  {
   "property": "C17",
   "status": "proved",
   "theorems": [
    "PySqlSync.C17_drop_schema_matches_prefix",
    "PySqlSync.C17_mysql_plain",
    "PySqlSync.C17_mysql_exact"
   ],
   "note": "C17_drop_schema_matches_prefix (standard rules) and the equivalence C17_mysql_exact."
  },
  {
   "property": "C18",
   "status": "proved",
   "theorems": [
    "PySqlSync.C18_postgresql_comment_reads_back",
    "PySqlSync.C18_delta_stored",
    "PySqlSync.C18_delta_exact",
    "PySqlSync.C18_snowflake_stored",
    "PySqlSync.C18_snowflake_exact"
   ],
   "note": "PostgreSQL in full, equivalences for Delta and Snowflake, and what is stored in general."
  },
  {
   "property": "C19",
   "status": "proved",
   "theorems": [
    "PySqlSync.C19_qualified_names_distinct",
    "PySqlSync.C19_prefixed_exact",
    "PySqlSync.C19_prefixed_text",
    "PySqlSync.C19_prefixed_plain",
    "PySqlSync.C19_prefixed_names_collide"
   ],
   "note": "Qualified names in full, an equivalence for prefixed names."
  },
  {
   "property": "C20",
   "status": "proved",
   "theorems": [
    "PySqlSync.C20_redshift_exact",
    "PySqlSync.C20_oracle_exact",
    "PySqlSync.C20_oracle_block_executed_whole",
    "PySqlSync.C20_splitting_fails",
    "PySqlSync.C20_oracle_block_first_fails"
   ],
   "note": "Equivalences for Redshift and Oracle, for scripts of any statements."
  },
  {
   "property": "C21",
   "status": "proved",
   "theorems": [
    "PySqlSync.C21_batches",
    "PySqlSync.C21_batches_any_size",
    "PySqlSync.C21_transformation_keeps_batches"
   ],
   "note": "for every list of records and every batch size; the transformations keep batches and records apart"
  },
  {
   "property": "C22",
   "status": "proved",
   "theorems": [
    "PySqlSync.C22_upsert",
    "PySqlSync.C22_copy",
    "PySqlSync.C22_accepted",
    "PySqlSync.C22_insert_exact",
    "PySqlSync.C22_omitted_but_labelled_misplaced",
    "PySqlSync.C22_identity_refused",
    "PySqlSync.C22_insert_data",
    "PySqlSync.C22_upsert_data",
    "PySqlSync.C22_upsert_data_exact",
    "PySqlSync.C22_insert_data_exact",
    "PySqlSync.C22_insert_data_other_order_misplaced"
   ],
   "note": "C22_upsert, C22_copy (whenever accepted; C22_accepted says when), C22_insert_exact, C22_upsert_data_exact, C22_insert_data_exact. The misplacements are silent."
  },
  {
   "property": "C23",
   "status": "proved",
   "theorems": [
    "PySqlSync.C23_labels_resolve",
    "PySqlSync.C23_labels_found",
    "PySqlSync.C23_labels_accepted",
    "PySqlSync.C23_batches_accepted",
    "PySqlSync.C23_supplied_key_refused",
    "PySqlSync.C23_null_list_refused"
   ],
   "note": "Streams of batches of records through lookup tables, for the insert-or-ignore statement of every dialect, any order of labels in the set and any order of the rows selected: stored keys resolve in the final table, existing assignments are kept, NULL stays NULL. Labels are always found and accepted if generated keys are new. Negative results: C23_supplied_key_refused, C23_null_list_refused (both are refusals, not wrong data)."
  },
  {
   "property": "C24",
   "status": "proved",
   "theorems": [
    "PySqlSync.C24_upsert",
    "PySqlSync.C24_idempotent",
    "PySqlSync.C24_accepted",
    "PySqlSync.C24_one_row_per_key",
    "PySqlSync.C24_identity_key_fails",
    "PySqlSync.C24_mysql_other_key_fails",
    "PySqlSync.C24_merge_other_key_fails",
    "PySqlSync.C24_repeated_call_refused"
   ],
   "note": "C24_upsert, C24_idempotent, C24_accepted, C24_one_row_per_key under Upsertable, which is the condition in the statement; theorems C24_*_fails show that each part of it is needed."
  },
  {
   "property": "C25",
   "status": "proved",
   "theorems": [
    "PySqlSync.C25_merge",
    "PySqlSync.C25_value_columns_supplied",
    "PySqlSync.C25_unsupplied_column_reset",
    "PySqlSync.C25_city_erased"
   ],
   "note": "C25_merge, C25_value_columns_supplied, C25_unsupplied_column_reset (for every table without other unique keys)."
  },
  {
   "property": "C26",
   "status": "proved",
   "theorems": [
    "PySqlSync.C26_delete",
    "PySqlSync.C26_delete_accepted",
    "PySqlSync.C26_composite_key_refused",
    "PySqlSync.C26_insert_or_ignore"
   ],
   "note": "delete_rows, and insert-or-ignore in every dialect. Foreign keys of other tables that refer to deleted rows are not modelled."
  },
  {
   "property": "C27",
   "status": "proved",
   "theorems": [
    "PySqlSync.C27_scalar",
    "PySqlSync.C27_tuple",
    "PySqlSync.C27_dict",
    "PySqlSync.C27_object",
    "PySqlSync.C27_oracle_refused",
    "PySqlSync.C27_oracle_exact",
    "PySqlSync.C27_oracle_swaps",
    "PySqlSync.C27_same_name_lost"
   ],
   "note": "C27_scalar, C27_tuple, C27_dict, C27_object with exact conditions for refusal; C27_oracle_refused, C27_oracle_exact."
  },
  {
   "property": "C28",
   "status": "proved",
   "theorems": [
    "PySqlSync.C28_read_back",
    "PySqlSync.C28_truncated",
    "PySqlSync.C28_exact",
    "PySqlSync.C28_header",
    "PySqlSync.C28_header_exact",
    "PySqlSync.C28_file",
    "PySqlSync.C28_file_exact",
    "PySqlSync.C28_empty_text_truncates"
   ],
   "note": "C28_exact for any line codec, C28_file_exact and C28_header_exact for the tab-separated format of the external library."
  },
  {
   "property": "C29",
   "status": "proved",
   "theorems": [
    "PySqlSync.C29_defined",
    "PySqlSync.C29_grouping",
    "PySqlSync.C29_order",
    "PySqlSync.C29_signed_no_loss",
    "PySqlSync.C29_integers",
    "PySqlSync.C29_char_lost",
    "PySqlSync.C29_longtext_lost",
    "PySqlSync.C29_unsigned_lost",
    "PySqlSync.C29_oracle_integers_refused",
    "PySqlSync.C29_exact"
   ],
   "note": "Equivalences: compatible_type is defined exactly when all types are of one kind (C29_defined), the common type holds every value of every member exactly when the types are Lossless (C29_exact, types of one dialect, integers with bounds included), and the result does not depend on grouping (C29_grouping) or order (C29_order). Where the claim is false: unsigned integers of the greatest width (C29_unsigned_lost), bare CHAR (C29_char_lost), MySQL LONGTEXT (C29_longtext_lost); Oracle integers are refused (C29_oracle_integers_refused)."
  },
  {
   "property": "C30",
   "status": "proved",
   "theorems": [
    "PySqlSync.C30_exactly_kept",
    "PySqlSync.C30_python",
    "PySqlSync.C30_max_length",
    "PySqlSync.C30_precision",
    "PySqlSync.C30_time_precision",
    "PySqlSync.C30_integer_range_fails",
    "PySqlSync.C30_user_type",
    "PySqlSync.C30_user_type_fails",
    "PySqlSync.C30_mysql_enum"
   ],
   "note": "C30_exactly_kept is an equivalence, given a table of what the catalogs report (Spec/ServerTypes.lean, from the manuals, trusted); C30_python and others evaluate it for what programs may declare."
  },
  {
   "property": "C31",
   "status": "proved",
   "theorems": [
    "PySqlSync.C31_exact",
    "PySqlSync.C31_fits",
    "PySqlSync.C31_unsigned_too_small",
    "PySqlSync.C31_extra_types",
    "PySqlSync.C31_annotated",
    "PySqlSync.C31_annotated_unsigned_too_small",
    "PySqlSync.C31_annotated_byte",
    "PySqlSync.C31_int"
   ],
   "note": "C31_exact is an equivalence; C31_extra_types, C31_int, C31_annotated, and two theorems for annotations that do not fit."
  },
  {
   "property": "C32",
   "status": "proved",
   "theorems": [
    "PySqlSync.C32_resolves",
    "PySqlSync.C32_tables",
    "PySqlSync.C32_types",
    "PySqlSync.C32_name_clash_fails"
   ],
   "note": "C32_resolves, C32_tables, C32_types for every set of data-classes and every combination of options; C32_name_clash_fails shows that the condition is needed."
  },
  {
   "property": "C33",
   "status": "proved",
   "theorems": [
    "PySqlSync.C33_lists",
    "PySqlSync.C33_sets",
    "PySqlSync.C33_shared_item_fails",
    "PySqlSync.C33_column_clash_fails"
   ],
   "note": "C33_lists in full; C33_sets is an equivalence."
  },
  {
   "property": "C34",
   "status": "proved",
   "theorems": [
    "PySqlSync.C34_types_resolve",
    "PySqlSync.C34_contents",
    "PySqlSync.C34_engines",
    "PySqlSync.C34_single_member_fails",
    "PySqlSync.C34_module_without_table_fails",
    "PySqlSync.C34_inline_list_fails",
    "PySqlSync.C34_other_class_fails",
    "PySqlSync.C34_exact_criterion",
    "PySqlSync.C34_created_types",
    "PySqlSync.C34_engine_criterion"
   ],
   "note": "C34_exact_criterion is an equivalence, for every accepted program and all options (C34_engine_criterion: its conditions on options hold for every generator); C34_created_types says which types are created; C34_types_resolve is the sufficient condition in closed form that C47 uses; C34_contents describes the contents of the created types. The _fails theorems are the findings."
  },
  {
   "property": "C35",
   "status": "proved",
   "theorems": [
    "PySqlSync.C35_unique",
    "PySqlSync.C35_unique_lost",
    "PySqlSync.C35_foreign",
    "PySqlSync.C35_union",
    "PySqlSync.C35_extensible",
    "PySqlSync.C35_enum_relation",
    "PySqlSync.C35_enum_check",
    "PySqlSync.C35_range",
    "PySqlSync.C35_unique_list_fails",
    "PySqlSync.C35_range_annotation",
    "PySqlSync.C35_engines",
    "PySqlSync.C35_names_across_tables_fails",
    "PySqlSync.C35_references_enforced",
    "PySqlSync.C35_enum_enforced"
   ],
   "note": "C35_unique and C35_unique_lost; C35_foreign, C35_union, C35_extensible, C35_enum_relation, C35_enum_check, C35_range with C35_range_annotation; C35_engines lists what engines have; C35_references_enforced, C35_enum_enforced say what the constraints mean for rows."
  },
  {
   "property": "C36",
   "status": "proved",
   "theorems": [
    "PySqlSync.C36_unique",
    "PySqlSync.C36_foreign",
    "PySqlSync.C36_foreign_refused",
    "PySqlSync.C36_unique_round_trip",
    "PySqlSync.C36_foreign_round_trip",
    "PySqlSync.C36_oracle_multiplies",
    "PySqlSync.C36_position_mispairs"
   ],
   "note": "C36_unique, C36_foreign, C36_foreign_refused for every sequence of rows, and round trips."
  },
  {
   "property": "C37",
   "status": "proved",
   "theorems": [
    "PySqlSync.C37_merge_is_union",
    "PySqlSync.C37_refused_iff_conflict",
    "PySqlSync.C37_merge_distinct",
    "PySqlSync.C37_merge_self",
    "PySqlSync.C37_merge_idempotent",
    "PySqlSync.C37_refused_merge_not_undone"
   ],
   "note": "Namespace.merge and Catalog.merge: the result is the union (every lookup), the call raises exactly if some object has two definitions, merging is idempotent. C37_refused_merge_not_undone: a refused merge keeps what was added before."
  },
  {
   "property": "C38",
   "status": "proved",
   "theorems": [
    "PySqlSync.C38_construction",
    "PySqlSync.C38_histories_behave_like_ordered_map",
    "PySqlSync.C38_add",
    "PySqlSync.C38_difference_intersection",
    "PySqlSync.C38_equality_ignores_order",
    "PySqlSync.C38_sort_sorted"
   ],
   "note": "any history of add/remove/reorder/sort"
  },
  {
   "property": "C39",
   "status": "proved",
   "theorems": [
    "PySqlSync.C39_no_namespace_lost",
    "PySqlSync.C39_references_first",
    "PySqlSync.C39_mutual_references_refused",
    "PySqlSync.C39_array_not_noticed"
   ],
   "note": "C39_no_namespace_lost, C39_references_first, C39_mutual_references_refused. The external topological sort is assumed to meet Spec.Sorts, which a verified sort shows to be satisfiable."
  },
  {
   "property": "C40",
   "status": "proved",
   "theorems": [
    "PySqlSync.C40_never_plain",
    "PySqlSync.C40_disabled",
    "PySqlSync.C40_prefer",
    "PySqlSync.C40_allow",
    "PySqlSync.C40_attempts",
    "PySqlSync.C40_oracle_always_plain",
    "PySqlSync.C40_mssql_never_verifies"
   ],
   "note": "For every behaviour of server and network. That asyncpg treats ssl=None like a preference for TLS is a matter of the driver, which is not modelled."
  },
  {
   "property": "C41",
   "status": "proved",
   "theorems": [
    "PySqlSync.C41_password_hidden",
    "PySqlSync.C41_parse",
    "PySqlSync.C41_read_back",
    "PySqlSync.C41_round_trip"
   ],
   "note": "C41_password_hidden, C41_parse, C41_read_back and the equivalence C41_round_trip."
  },
  {
   "property": "C42",
   "status": "proved",
   "theorems": [
    "PySqlSync.C42_objects",
    "PySqlSync.C42_keys",
    "PySqlSync.C42_distinct",
    "PySqlSync.C42_succeeds",
    "PySqlSync.C42_key_range_fails",
    "PySqlSync.C42_refined_range_fails",
    "PySqlSync.C42_min_length_fails",
    "PySqlSync.C42_unique_fails"
   ],
   "note": "For every stream of random choices: C42_objects, C42_keys, C42_distinct, C42_succeeds; the exceptions are proved, too."
  },
  {
   "property": "C43",
   "status": "proved",
   "theorems": [
    "PySqlSync.C43_history",
    "PySqlSync.C43_calls"
   ],
   "note": "For every history of register/unregister calls, including refused ones."
  },
  {
   "property": "C44",
   "status": "proved",
   "theorems": [
    "PySqlSync.C44_accepted",
    "PySqlSync.C44_one_to_one",
    "PySqlSync.C44_default_and_empty",
    "PySqlSync.C44_schemas"
   ],
   "note": "C44_accepted, C44_one_to_one, and the equivalence C44_schemas."
  },
  {
   "property": "C45",
   "status": "proved",
   "theorems": [
    "PySqlSync.C45_constant",
    "PySqlSync.C45_statement",
    "PySqlSync.C45_script",
    "PySqlSync.C45_schema_name_fails",
    "PySqlSync.C45_label_fails"
   ],
   "note": "C45_statement, C45_script, C45_constant: for every statement of the model, every dialect, any names, labels, comments (Clear: those of the statement). Not modelled: white space of single-constraint ALTER statements; comments in SQL; regular identifiers that need no quoting."
  },
  {
   "property": "C46",
   "status": "proved",
   "theorems": [
    "PySqlSync.C46_comments_exact",
    "PySqlSync.C46_exact_criterion",
    "PySqlSync.C46_descriptions_in_sync",
    "PySqlSync.C46_type_descriptions_in_sync",
    "PySqlSync.C46_descriptions_created",
    "PySqlSync.C46_comment_of_converted_column_is_lost",
    "PySqlSync.C46_member_comments_fail",
    "PySqlSync.C46_executed_criterion",
    "PySqlSync.C46_executed_types"
   ],
   "note": "C46_executed_criterion is an equivalence for every pair of catalogs whose script the database executes (C46_exact_criterion: the same for scripts between catalogs in which names keep their kinds, whether executed or not); C46_comments_exact says what the comments are in any case; C46_executed_types for composite types; C46_member_comments_fail: comments of members of composite types, which the claim leaves out, are written at creation only."
  },
  {
   "property": "C47",
   "status": "proved",
   "theorems": [
    "PySqlSync.C47_deploy",
    "PySqlSync.C47_extensible_enum_fails",
    "PySqlSync.C47_optional_key_fails",
    "PySqlSync.C47_generated_default_fails",
    "PySqlSync.C47_generated_optional_fails",
    "PySqlSync.C47_delta_default_fails",
    "PySqlSync.C47_repeated_label_fails",
    "PySqlSync.C47_module_without_table_fails",
    "PySqlSync.C47_list_of_other_module_fails",
    "PySqlSync.C47_module_without_schema_fails"
   ],
   "note": "C47_deploy composes conversion (C32-C35), ordering and emission (C01) for every engine and all options: every program that meets the conditions of the statement (Spec.Deployable) is deployed from an empty database, and the result is described field by field in Spec.Deployed, including the tables that join (IsJoin), lookup tables (IsLookupTable) and the types of the database. That the conditions cannot be dropped is shown by the C47_*_fails theorems (and C32_name_clash_fails, C33_column_clash_fails, C35_unique_list_fails), one program for each; only for the one about points in time as defaults on Snowflake this is not known (it stems from ALTER statements). External orderings (type_topological_sort, topological_sort) are assumed to satisfy OrdersClasses and Sorts, which are shown satisfiable; generated check conditions are read by an assumed reader, ReadsConditions, for which a concrete scanner is proved to qualify. The rows of lookup tables are in C50_created."
  },
  {
   "property": "C48",
   "status": "proved",
   "theorems": [
    "PySqlSync.C48_text",
    "PySqlSync.C48_text_fails",
    "PySqlSync.C48_length_exact",
    "PySqlSync.C48_ascii_exact",
    "PySqlSync.C48_datetime_exact",
    "PySqlSync.C48_time_exact",
    "PySqlSync.C48_time_precision",
    "PySqlSync.C48_decimal_exact",
    "PySqlSync.C48_decimal_precision",
    "PySqlSync.C48_float",
    "PySqlSync.C48_float_precision_fails",
    "PySqlSync.C48_labels"
   ],
   "note": "Equivalences for all engines and parameters, given the capacities of column types in Spec/Capacity.lean (from the manuals, trusted)."
  },
  {
   "property": "C49",
   "status": "proved",
   "theorems": [
    "PySqlSync.C49_data_kept",
    "PySqlSync.C49_data_converted",
    "PySqlSync.C49_no_row_lost_or_added",
    "PySqlSync.C49_other_tables_untouched"
   ],
   "note": "For every pair of catalogs, all dialects and options, any rows: C49_data_kept, C49_data_converted, C49_no_row_lost_or_added, C49_other_tables_untouched. The effect of statements on rows is Spec/Rows.lean (trusted reading of SQL, parametrized by the engine's conversion of values); converting twice to the same type is assumed to change nothing (Settles). Whether the database accepts the script is C01 and C10. Columns converted from labels to keys are C10; dropping what the target lacks is the point of C02-C04."
  },
  {
   "property": "C50",
   "status": "proved",
   "theorems": [
    "PySqlSync.C50_new_table",
    "PySqlSync.C50_created",
    "PySqlSync.C50_new_members_are_ignored"
   ],
   "note": "C50_created (string and integer labels, given that the database reads the constants as written: C16, C45), C50_new_table, C50_new_members_are_ignored. Without initialize_tables (the default) the table is created empty and labels are added with the data (C23)."
  },
  {
   "property": "C51",
   "status": "proved",
   "theorems": [
    "PySqlSync.C51_exactly_readable",
    "PySqlSync.C51_discovered",
    "PySqlSync.C51_settled",
    "PySqlSync.C51_condition_added_again",
    "PySqlSync.C51_discover_faithful",
    "PySqlSync.C51_default_exact",
    "PySqlSync.C51_default_never_settles"
   ],
   "note": "C51_exactly_readable (equivalence), C51_discovered, C51_discover_faithful, C51_settled; C51_condition_added_again, C51_default_exact and C51_default_never_settles are the findings. What the catalogs of PostgreSQL report for a schema is Spec/Explore.lean (Holds: trusted, from the manual); expressions of defaults are reported by an arbitrary function, for constants by Const.reported."
  },
  {
   "property": "C52",
   "status": "proved",
   "theorems": [
    "PySqlSync.C52_mysql_table",
    "PySqlSync.C52_mssql_table",
    "PySqlSync.C52_oracle_table",
    "PySqlSync.C52_mysql_settled",
    "PySqlSync.C52_oracle_settled",
    "PySqlSync.C52_mssql_settled",
    "PySqlSync.C52_not_changed",
    "PySqlSync.C52_mysql_overlap_refused",
    "PySqlSync.C52_mysql_drops_others",
    "PySqlSync.C52_oracle_drops_others",
    "PySqlSync.C52_mssql_default_again",
    "PySqlSync.C52_condition_again",
    "PySqlSync.C52_oracle_composite_again"
   ],
   "note": "Equivalences: C52_mysql_table, C52_mssql_table, C52_oracle_table (one table), C52_mysql_settled, C52_mssql_settled, C52_oracle_settled (whole databases: discovery succeeds and the comparison is empty exactly if ...), C52_not_changed (a call of synchronize). The others are the findings. What the catalogs report is Spec/Explorers.lean (trusted, from the manuals); how defaults are reported is an arbitrary function. Types without an entry in Spec/ServerTypes.lean are not covered."
  },
  {
   "property": "C53",
   "status": "proved",
   "theorems": [
    "PySqlSync.C53_generated_iff",
    "PySqlSync.C53_fields",
    "PySqlSync.C53_key_lost",
    "PySqlSync.C53_types_exact",
    "PySqlSync.C53_columns_exact",
    "PySqlSync.C53_default_quoted",
    "PySqlSync.C53_reference_required"
   ],
   "note": "Equivalences C53_generated_iff (when a class is generated), C53_types_exact and C53_columns_exact (what comes back, every engine, every type without names of other types); C53_fields; findings C53_key_lost, C53_default_quoted, C53_reference_required. Not modelled: evaluation of forward references, generation of source code (python_types.py)."
  },
  {
   "property": "C54",
   "status": "proved",
   "theorems": [
    "PySqlSync.C54_extracted",
    "PySqlSync.C54_addresses",
    "PySqlSync.C54_enum",
    "PySqlSync.C54_enum_rows",
    "PySqlSync.C54_rows",
    "PySqlSync.C54_delete_data",
    "PySqlSync.C54_null",
    "PySqlSync.C54_json_rows",
    "PySqlSync.C54_json_objects_fail",
    "PySqlSync.C54_set_fails"
   ],
   "note": "Equivalences for objects (C54_extracted, C54_addresses, C54_enum) and records (C54_enum_rows, C54_json_rows), C54_rows, C54_null; findings C54_json_objects_fail, C54_set_fails, C54_delete_data and the negative sides of the equivalences. What columns store of parameters is trusted (Spec/Bind). For inserts in Redshift see C55."
  },
  {
   "property": "C55",
   "status": "proved",
   "theorems": [
    "PySqlSync.C55_exact",
    "PySqlSync.C55_bytes_fail"
   ],
   "note": "C55_exact is an equivalence; C55_bytes_fail. The reader of COPY (Spec/Copy) is trusted."
  },
  {
   "property": "C56",
   "status": "proved",
   "theorems": [
    "PySqlSync.C56_exact_criterion",
    "PySqlSync.C56_optional_identity_fails",
    "PySqlSync.C56_key_recognized",
    "PySqlSync.C56_recognized_is_key",
    "PySqlSync.C56_key_of_one_field",
    "PySqlSync.C56_identity_key_fails",
    "PySqlSync.C56_field_type"
   ],
   "note": "C56_exact_criterion is an equivalence for all sequences of wrappers; C56_key_recognized, C56_key_of_one_field for classes; findings C56_optional_identity_fails, C56_identity_key_fails. The typing module and strong_typing functions are modelled from their documentation."
  },
  {
   "property": "C57",
   "status": "proved",
   "theorems": [
    "PySqlSync.C57_make_entity",
    "PySqlSync.C57_accepted",
    "PySqlSync.C57_factory_fails"
   ],
   "note": "C57_make_entity and the exact condition C57_accepted; finding C57_factory_fails."
  },
  {
   "property": "C58",
   "status": "proved",
   "theorems": [
    "PySqlSync.C58_flat_fields",
    "PySqlSync.C58_distinct",
    "PySqlSync.C58_optional_fails",
    "PySqlSync.C58_clash_fails"
   ],
   "note": "C58_flat_fields is an equivalence; C58_distinct; findings C58_optional_fails, C58_clash_fails."
  },
  {
   "property": "C59",
   "status": "proved",
   "theorems": [
    "PySqlSync.C59_only_defaults",
    "PySqlSync.C59_scalar",
    "PySqlSync.C59_enum",
    "PySqlSync.C59_reference",
    "PySqlSync.C59_mandatory_columns_have_defaults",
    "PySqlSync.C59_composite",
    "PySqlSync.C59_engines",
    "PySqlSync.C59_mysql_fails",
    "PySqlSync.C59_date_fails",
    "PySqlSync.C59_label_for_key_fails"
   ],
   "note": "C59_only_defaults, C59_scalar, C59_enum, C59_reference, C59_composite, C59_mandatory_columns_have_defaults, C59_engines; findings C59_mysql_fails, C59_date_fails, C59_label_for_key_fails."
  },
  {
   "property": "C60",
   "status": "proved",
   "theorems": [
    "PySqlSync.C60_cascading",
    "PySqlSync.C60_trino_exact",
    "PySqlSync.C60_mysql_exact",
    "PySqlSync.C60_oracle_exact",
    "PySqlSync.C60_mssql_exact",
    "PySqlSync.C60_create_schema",
    "PySqlSync.C60_empty_name",
    "PySqlSync.C60_create_drop_fails",
    "PySqlSync.C60_prefix_fails",
    "PySqlSync.C60_others_fail",
    "PySqlSync.C60_forgotten_fails"
   ],
   "note": "Equivalences for each engine with a driver: C60_cascading, C60_mssql_exact, C60_mysql_exact, C60_oracle_exact, C60_trino_exact, C60_create_schema; findings C60_others_fail, C60_prefix_fails (namespaces whose names begin with another and two underscores), C60_create_drop_fails, C60_forgotten_fails. The behaviour of servers (Spec/DropSchema) is trusted."
  },
  {
   "property": "C61",
   "status": "proved",
   "theorems": [
    "PySqlSync.C61_upsert",
    "PySqlSync.C61_delete",
    "PySqlSync.C61_insert_exact",
    "PySqlSync.C61_identity_shifted",
    "PySqlSync.C61_mssql_integers",
    "PySqlSync.C61_oracle_integers_exact",
    "PySqlSync.C61_oracle_annotated",
    "PySqlSync.C61_mssql_text",
    "PySqlSync.C61_oracle_text",
    "PySqlSync.C61_decimal_precision",
    "PySqlSync.C61_mssql_decimal_exact",
    "PySqlSync.C61_mssql_time_exact",
    "PySqlSync.C61_oracle_time",
    "PySqlSync.C61_mssql_bytes",
    "PySqlSync.C61_declared_exact"
   ],
   "note": "Positions: C61_upsert, C61_delete, C61_insert_exact (finding C61_identity_shifted). Values: C61_mssql_integers, C61_oracle_integers_exact, C61_oracle_annotated, C61_mssql_text, C61_oracle_text, C61_decimal_precision, C61_mssql_decimal_exact, C61_mssql_time_exact, C61_oracle_time, C61_mssql_bytes, C61_declared_exact. What a declared parameter admits is from the manuals of ODBC and python-oracledb (Spec/Params, trusted); a driver may be more lenient."
  },
  {
   "property": "C62",
   "status": "proved",
   "theorems": [
    "PySqlSync.C62_tokens",
    "PySqlSync.C62_percent_exact",
    "PySqlSync.C62_trino_refused",
    "PySqlSync.C62_written",
    "PySqlSync.C62_functions",
    "PySqlSync.C62_condition",
    "PySqlSync.C62_identity_key_no_condition",
    "PySqlSync.C62_percent_in_name"
   ],
   "note": "C62_tokens and C62_functions (tokens as in C45; the table must not be a bare global name other than a word, which no factory makes), C62_written, C62_trino_refused, C62_percent_exact (finding C62_percent_in_name), C62_condition (finding C62_identity_key_no_condition). Which statement is intended is in C22; percentFormat is the part of Python's % that concerns %s and %%."
  },
  {
   "property": "C63",
   "status": "proved",
   "theorems": [
    "PySqlSync.C63_returned_is_durable",
    "PySqlSync.C63_history",
    "PySqlSync.C63_whole_batches_exact",
    "PySqlSync.C63_copied_whole",
    "PySqlSync.C63_script_exact",
    "PySqlSync.C63_part_of_batch_committed_later",
    "PySqlSync.C63_work",
    "PySqlSync.C63_upsert_retry"
   ],
   "note": "C63_returned_is_durable, C63_history (all histories), C63_whole_batches_exact, C63_copied_whole, C63_script_exact (equivalences over the engines that have a connection), C63_work, C63_upsert_retry (with the tables and statements of C24). Finding: C63_part_of_batch_committed_later. When drivers commit is from their manuals (Spec/Transact, trusted)."
  },
  {
   "property": "C64",
   "status": "proved",
   "theorems": [
    "PySqlSync.C64_as_if_direct",
    "PySqlSync.C64_exact",
    "PySqlSync.C64_once",
    "PySqlSync.C64_returned_settled",
    "PySqlSync.C64_no_overlap",
    "PySqlSync.C64_shared_fails",
    "PySqlSync.C64_all_end",
    "PySqlSync.C64_cancel_blocks",
    "PySqlSync.C64_cancel_blocks_reached",
    "PySqlSync.C64_open_cancelled_fails",
    "PySqlSync.C64_within"
   ],
   "note": "C64_as_if_direct (refinement), C64_exact (the specification allows nothing else), C64_once, C64_returned_settled, C64_no_overlap, C64_all_end (no infinite schedule, no deadlock), C64_within. Findings: C64_shared_fails (two tasks on one connection: their functions may overlap), C64_cancel_blocks with C64_cancel_blocks_reached (cancelling a running call blocks the whole event loop until the function finishes), C64_open_cancelled_fails (a connection opened by a call that is cancelled is never closed). The behaviour of asyncio and concurrent.futures is a premise, stated at the head of Model/Dispatch."
  },
  {
   "property": "C65",
   "status": "proved",
   "theorems": [
    "PySqlSync.C65_labels_resolve",
    "PySqlSync.C65_one_key",
    "PySqlSync.C65_never_refused",
    "PySqlSync.C65_can_finish"
   ],
   "note": "C65_labels_resolve (safety, for all interleavings), C65_one_key, C65_never_refused, C65_can_finish. A statement with one record is atomic in the model (an engine that lets two such statements race refuses one of them with a unique violation: a failed client here); programs that remove labels are outside the claim."
  },
  {
   "property": "C66",
   "status": "proved",
   "theorems": [
    "PySqlSync.C66_string",
    "PySqlSync.C66_enum",
    "PySqlSync.C66_dataclass",
    "PySqlSync.C66_module",
    "PySqlSync.C66_refused",
    "PySqlSync.C66_field_fails",
    "PySqlSync.C66_empty_fails",
    "PySqlSync.C66_object_fails",
    "PySqlSync.C66_keyword_fails"
   ],
   "note": "C66_string, C66_enum, C66_dataclass, C66_module (positive part), C66_refused, C66_field_fails, C66_object_fails, C66_empty_fails, C66_keyword_fails (limits). What Python reads is specified in Spec/PyCode for the lines that occur; the text of types is a parameter (external formatter) with balanced brackets and strings; documentation strings of data classes with several lines are re-wrapped by external code and outside the claim."
  },
  {
   "property": "C67",
   "status": "proved",
   "theorems": [
    "PySqlSync.C67_exact",
    "PySqlSync.C67_order",
    "PySqlSync.C67_accepted",
    "PySqlSync.C67_columns",
    "PySqlSync.C67_header",
    "PySqlSync.C67_reference",
    "PySqlSync.C67_limits"
   ],
   "note": "C67_exact (which types, with which result), C67_order, C67_accepted, C67_columns, C67_header, C67_reference, C67_limits. Unions are flat, as typing makes them (FlatUnion); the types are those of Model/PyTypes."
  },
  {
   "property": "C68",
   "status": "proved",
   "theorems": [
    "PySqlSync.C68_read",
    "PySqlSync.C68_password_cut",
    "PySqlSync.C68_injection",
    "PySqlSync.C68_ssl"
   ],
   "note": "C68_read, C68_password_cut, C68_injection, C68_ssl. How the driver manager reads a connection string is a specification (Spec/Odbc). Not yet tested against edited programs."
  }
 ]
}