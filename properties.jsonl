{"id": "C01", "title": "Schema synchronization reaches the desired state", "statement": "Running the SQL script returned by get_mutate_stmt / executed by Explorer.synchronize against a database whose schema is the source state succeeds statement by statement and leaves the database with exactly the schemas, enumeration types, composite types, tables, columns (type, nullability, default, identity), primary keys and constraints of the target state, exactly if (namespaces being taken in the library's order): each new namespace uses types of itself, of earlier new namespaces and of the source only, its foreign keys refer to new namespaces and the source only, and it lists its composite types in order of reference; whenever some of the namespaces present in both states have been changed and the others not yet, nothing in them refers to a type or table that is not there at that point; each of those changes is within what the library can do: a name that stays in use denotes the same kind of object in both states (or a table that replaces an enumeration of the same name, not written with a namespace prefix), new composite types use only earlier new ones, dropped composite types are not used by, and dropped tables not referenced from, ones dropped later, and every table change meets the conditions of C06; nothing in the target uses a removed namespace, no removed namespace uses types of one removed before it, and none of its composite types is used by an earlier one.", "quantifier": "every well-formed pair of source and target catalogs (any number of namespaces, tables, columns, constraints), every Mutator option set that permits dropping", "why_tests_cant": "The space of (source, target) pairs is infinite and the script depends on both; tests try a handful of hand-written class changes.", "anchors": ["pysqlsync/formation/mutation.py: Mutator.mutate_catalog_stmt, mutate_namespace_stmt, mutate_table_stmt", "pysqlsync/base.py: BaseGenerator.get_mutate_stmt, Explorer.synchronize"], "unrestricted_claim": "Running the SQL script returned by get_mutate_stmt / executed by Explorer.synchronize against a database whose schema is the source state succeeds statement by statement and leaves the database with exactly the schemas, enumeration types, composite types, tables, columns (type, nullability, default, identity), primary keys and constraints of the target state.", "refuted_by": "C01_drop_constrained_column_fails and the other theorems of Props/C01Fails.lean; C01_failures_are_unsafe"}
{"id": "C02", "title": "Synchronizing an up-to-date database does nothing", "statement": "If the source and target states are equal (up to the order in which objects are listed), get_mutate_stmt returns None, hence synchronize executes no statement.", "quantifier": "every well-formed catalog and every re-ordering of it", "why_tests_cant": "Idempotence must hold for every catalog; a single spurious ALTER on some column shape is enough to rewrite a production table.", "anchors": ["pysqlsync/formation/mutation.py: Mutator.mutate_catalog_stmt", "pysqlsync/base.py: Explorer.synchronize"]}
{"id": "C03", "title": "Synchronization never drops what both states share", "statement": "A table present in both states is never the subject of DROP TABLE, and a column present in both states whose type is not being converted to an enumeration key is never dropped or renamed by the script; no statement addresses a table outside source and target.", "quantifier": "every pair of source and target catalogs and every statement of the resulting script", "why_tests_cant": "Data loss is triggered by particular combinations of added, removed and shared objects; sampling pairs cannot exclude it.", "anchors": ["pysqlsync/formation/mutation.py: Mutator.mutate_namespace_stmt, mutate_table_stmt", "pysqlsync/formation/object_types.py: Table.drop_stmt, Column.drop_stmt"]}
{"id": "C04", "title": "Drop permissions are honoured", "statement": "With allow_drop_table / allow_drop_struct / allow_drop_enum / allow_drop_namespace set to False the emitted script contains no statement that drops a table / a composite type / an enumeration type in a namespace both states share, respectively no statement that drops a schema or any object of a removed namespace.", "quantifier": "every pair of catalogs and every combination of the four options", "why_tests_cant": "Safety options must hold on all paths, including the enumeration soft-delete path.", "anchors": ["pysqlsync/formation/mutation.py: MutatorOptions, Mutator.mutate_namespace_stmt, Mutator.mutate_catalog_stmt"]}
{"id": "C05", "title": "Column alteration is exact", "statement": "For every pair of columns with the same name: the ALTER/MODIFY clause emitted for the change, applied to the source column, yields a column with the target's data type, nullability, default and identity and changes nothing else, exactly if the change is not one of these: (where clauses list single changes: ANSI, PostgreSQL, Delta, Snowflake) giving up generated values together with NOT NULL or for a default; (Snowflake) setting a default that is written differently for its data type; (Oracle, Snowflake, Delta) keeping a default that is written differently for the new data type. On SQL Server it always does, and a change of identity is refused. No clause is emitted iff the attributes (and on MySQL the comments) already agree.", "quantifier": "every pair of columns with the same name, each dialect", "why_tests_cant": "Four attributes, each with several transitions, over an unbounded set of data types and default expressions, times four dialect-specific code paths.", "anchors": ["pysqlsync/formation/mutation.py: Mutator.mutate_column_stmt", "pysqlsync/dialect/mysql/mutation.py: MySQLMutator.mutate_column_stmt", "pysqlsync/dialect/oracle/mutation.py: OracleMutator.mutate_column_stmt", "pysqlsync/dialect/mssql/mutation.py: MSSQLMutator.mutate_column_stmt, mutate_table_stmt"], "unrestricted_claim": "Applying the ALTER/MODIFY clause emitted for a (source, target) column pair to the source column yields a column with the target's data type, nullability, default and identity, and no clause is emitted iff these already agree; holds for the ANSI/PostgreSQL, MySQL, Oracle and SQL Server variants.", "refuted_by": "C05_identity_to_nullable_refused, C05_snowflake_timestamp_default"}
{"id": "C06", "title": "Table alteration is exact", "statement": "Executing the script emitted for a (source, target) table pair turns the source table into the target table (same set of columns with the same attributes, the same primary key and constraints), leaves everything else as it was, and keeps the database consistent after each statement, exactly if: the primary keys are equal; (except on MySQL) no dropped column takes part in a constraint of the source; no column converted from an enumeration or text to an integer key takes part in the primary key or in a constraint of the source (MySQL: in a constraint that stays), changes its identity property (except on MySQL and Oracle) or has a default afterwards (SQL Server); (except on MySQL and Oracle) no column gives up identity together with NOT NULL or for a default; (Oracle) no default that stays is written differently for the new data type.", "quantifier": "every pair of tables with the same name for which a script is emitted, every consistent database that has the source table, every dialect", "why_tests_cant": "Added/removed/changed columns and constraints interact within one ALTER statement.", "anchors": ["pysqlsync/formation/mutation.py: Mutator.mutate_table_stmt", "pysqlsync/formation/object_types.py: Table.alter_table_stmt, ObjectDict"], "unrestricted_claim": "Executing the script emitted for a (source, target) table pair turns the source table into the target table: same set of columns with the same attributes and the same constraints; columns or constraints in neither state never appear.", "refuted_by": "C06_primary_key_change_ignored, C01_drop_constrained_column_fails, C01_mssql_converted_default_fails"}
{"id": "C07", "title": "Enumeration types are only ever extended", "statement": "mutate_enum_stmt either raises FormationError (exactly when the target lacks a source value) or emits one ADD VALUE per missing value, in target order, such that the resulting enumeration has exactly the target's values and every stored value stays valid.", "quantifier": "every pair of enumeration value lists", "why_tests_cant": "Lists of arbitrary length with arbitrary overlap.", "anchors": ["pysqlsync/formation/mutation.py: Mutator.mutate_enum_stmt"]}
{"id": "C08", "title": "Composite type alteration is exact", "statement": "Executing the ALTER TYPE emitted for a pair of composite types yields the target's attributes; nothing is emitted iff the members agree.", "quantifier": "every pair of composite types with the same name", "why_tests_cant": "Arbitrary member sets.", "anchors": ["pysqlsync/formation/mutation.py: Mutator.mutate_struct_stmt"]}
{"id": "C09", "title": "Enumeration-to-lookup-table conversion is safe at every step", "statement": "When an enumeration type is replaced by a lookup table of the same name, the script first frees the name by renaming the type, then creates and fills the table with every enumeration value, and removes the renamed type only after all tables were altered; no intermediate state has two objects with one name and the old type still exists while data is migrated.", "quantifier": "every namespace pair and every prefix of the script (crash point)", "why_tests_cant": "The property is about every intermediate state of the script.", "anchors": ["pysqlsync/formation/mutation.py: Mutator.mutate_namespace_stmt, migrate_enum_stmt", "pysqlsync/formation/object_types.py: EnumType.soft_drop_stmt, hard_drop_stmt, deleted"]}
{"id": "C10", "title": "Column data migration preserves labels", "statement": "When a column changes from an enumeration (or text) to a key of a lookup table, and the emitted rename / add / UPDATE ... JOIN / drop sequence runs, then each row holds a key whose lookup-table label equals the row's former value exactly if: on PostgreSQL, the lookup table lists every label that some row has; on MySQL, always (the sequence lists the labels itself); with every other dialect, no row has a label (the labels are forgotten). NULL stays NULL, and a column that does not change keeps its values. The sequence does not run if the new key is NOT NULL, there are rows and the database has no implicit values. On PostgreSQL and MySQL the labels survive under these conditions within whole scripts too, whatever else changes, for lookup tables that are there before or that the script creates.", "quantifier": "every table content, every lookup table content, every dialect", "why_tests_cant": "Depends on all row contents and pre-existing lookup rows.", "anchors": ["pysqlsync/dialect/postgresql/mutation.py: PostgreSQLMutator.migrate_column_stmt", "pysqlsync/dialect/mysql/mutation.py: MySQLMutator.migrate_column_stmt", "pysqlsync/formation/mutation.py: Mutator.mutate_table_stmt, is_column_migrated"], "unrestricted_claim": "When a column changes from an enumeration (or text) to an integer key, after the emitted rename / add / UPDATE ... JOIN / drop sequence each row holds a key whose lookup-table label equals the row's former value, and NULL stays NULL.", "refuted_by": "C10_other_dialects_forget, C10_not_null_column_refused"}
{"id": "C11", "title": "Unsupported changes are refused, not ignored", "statement": "If two states differ in something the library cannot express as a mutation (removed enumeration value, constraint with the same name but a different definition, identity change on SQL Server), synchronization raises an error; if it emits nothing then the states agree in schemas, types, labels, members, tables, columns and constraints. The one difference that is always ignored is that of primary keys: a table that differs in the primary key only yields no statement and no error.", "quantifier": "every pair of catalogs", "why_tests_cant": "Completeness of difference detection is a for-all statement over pairs.", "anchors": ["pysqlsync/formation/mutation.py: Mutator.mutate_table_stmt, check_identity", "pysqlsync/dialect/mssql/mutation.py"], "unrestricted_claim": "If two states differ in something the library cannot express as a mutation (removed enumeration value, constraint with the same name but a different definition, identity change on SQL Server, mismatching primary key), synchronization raises an error rather than reporting success with the difference still present.", "refuted_by": "C11_primary_key_change_ignored, C06_primary_key_change_ignored"}
{"id": "C12", "title": "Statements are issued in dependency order", "statement": "At each point of the script every table, type, schema and column the next statement refers to exists and nothing is dropped while something still depends on it (each statement is accepted and leaves a consistent database), and the end of the script leaves the target state, exactly if the two states meet the conditions of C01; for creation in an empty database the script is accepted exactly if each namespace uses types of itself and of namespaces created before it only and lists its composite types in order of reference.", "quantifier": "every pair of catalogs and every prefix of the script", "why_tests_cant": "Dependency graphs of arbitrary shape.", "anchors": ["pysqlsync/formation/mutation.py: Mutator.mutate_namespace_stmt, mutate_catalog_stmt", "pysqlsync/formation/object_types.py: Namespace.create_objects_stmt, drop_objects_stmt, Catalog.sort"], "unrestricted_claim": "At each point of the script every table, type, schema and column a statement refers to exists, and nothing is dropped while something still depends on it.", "refuted_by": "C12_array_of_foreign_type_fails"}
{"id": "C13", "title": "Create followed by drop restores the database", "statement": "generator.create(...) followed by generator.drop() produces scripts that, executed on an empty database, return it to empty, exactly if no namespace uses a type of another namespace and each namespace lists its composite types in order of reference (foreign keys between namespaces are no obstacle).", "quantifier": "every well-formed catalog", "why_tests_cant": "All catalogs.", "anchors": ["pysqlsync/base.py: BaseGenerator.create, BaseGenerator.drop", "pysqlsync/formation/object_types.py: Catalog.create_stmt, Catalog.drop_stmt, Namespace.drop_constraints_stmt"], "unrestricted_claim": "generator.create(...) followed by generator.drop() produces scripts that, executed on an empty database, return it to empty.", "refuted_by": "C13_two_schemas_fails"}
{"id": "C14", "title": "The connection's schema model stays faithful across histories", "statement": "After any history of create_objects, drop_objects, discover and synchronize calls, returning, raising or failing, the schema model kept by the connection equals the database schema exactly until one of these happens: create_objects or drop_objects fails and leaves a database that is not what it was to make; synchronize raises because its target cannot be created from nothing, while the database is not empty; synchronize fails on an engine that does not undo what was done, after something was changed. As long as none happens, calls that return make of the database what they are given. Whatever the connection believes, discover, and synchronize if it returns, make it believe what the database is. (For schemas between which scripts work, see C01, and which discovery describes, see C51, C52.)", "quantifier": "every finite history of calls with every choice of failing statements", "why_tests_cant": "Histories and failure points are unbounded.", "anchors": ["pysqlsync/base.py: BaseGenerator.create, drop, Explorer.discover, Explorer.synchronize, BaseContext.create_objects, drop_objects"], "unrestricted_claim": "After any history of create_objects, drop_objects, discover and synchronize calls, successful or failed, the schema model kept by the connection equals the database schema, so that later calls generate correct statements.", "refuted_by": "C14_failed_create_unfaithful, C14_failed_create_not_retried, C14_refused_target_forgets"}
{"id": "C15", "title": "Quoted identifiers denote themselves", "statement": "str() of a local or qualified identifier is a SQL delimited identifier which a SQL lexer reads back as exactly the original name(s), whatever characters they contain, and never swallows or exposes following text; distinct names have distinct texts.", "quantifier": "every string(s) and every following SQL text", "why_tests_cant": "Any Unicode string may be an identifier; injection is about the one string nobody tried.", "anchors": ["pysqlsync/model/id_types.py: quote_id, LocalId, QualifiedId, PrefixedId"]}
{"id": "C16", "title": "String literals denote themselves", "statement": "quote(s)/constant(v) yields a SQL literal that reads back as exactly s under the standard lexical rules, whatever follows, and different strings have different literals. Under the rules of servers that treat a backslash as an escape character it does so exactly if: on MySQL and Delta, every backslash in the string is followed by % or _; on Snowflake, it has no backslash.", "quantifier": "every string; every nested tuple of constants", "why_tests_cant": "All strings.", "anchors": ["pysqlsync/model/data_types.py: quote, constant", "pysqlsync/dialect/mysql/mutation.py", "pysqlsync/dialect/mysql/object_types.py: MySQLColumn.comment"], "unrestricted_claim": "quote(s)/constant(v) yields a SQL literal that reads back as exactly s under the standard lexical rules (and under the rules of the server it is sent to), whatever follows.", "refuted_by": "C16_quote_mysql_fails"}
{"id": "C17", "title": "Dropping a prefixed schema touches only its own tables", "statement": "The LIKE pattern built by drop_schema matches a table name iff the name starts with '<namespace>__': always under the standard lexical rules (Oracle), and on MySQL exactly if the namespace has no backslash.", "quantifier": "every namespace name and every table name", "why_tests_cant": "Wildcard and escape characters in names; all pairs of strings.", "anchors": ["pysqlsync/model/data_types.py: escape_like", "pysqlsync/dialect/mysql/connection.py: MySQLContext.drop_schema", "pysqlsync/dialect/oracle/connection.py: OracleContext.drop_schema"], "unrestricted_claim": "The LIKE pattern built by drop_schema (MySQL, Oracle) matches a table name iff the name starts with '<namespace>__'.", "refuted_by": "C17_mysql_exact"}
{"id": "C18", "title": "Comments are stored verbatim", "statement": "The comment literal emitted for a table/column description reads back, under the engine's string literal rules, as exactly the description: always on PostgreSQL, and on Delta and Snowflake exactly if no NUL character of the description is followed by two octal digits.", "quantifier": "every description string", "why_tests_cant": "All strings incl. backslashes, quotes, control characters.", "anchors": ["pysqlsync/dialect/postgresql/object_types.py: sql_quoted_string", "pysqlsync/dialect/delta/object_types.py: sql_quoted_string", "pysqlsync/dialect/snowflake/object_types.py: sql_quoted_string"], "unrestricted_claim": "The comment literal emitted for a table/column description (PostgreSQL, Delta, Snowflake) reads back, under that engine's string literal rules, as exactly the description.", "refuted_by": "C18_delta_exact, C18_snowflake_exact"}
{"id": "C19", "title": "Qualified names never collide", "statement": "Two distinct (namespace, name) pairs map to distinct database object names; for engines without schemas (prefix mode) two namespaces never share an object name exactly if neither prefix '<namespace>__' begins with the other, in particular if no namespace has a double underscore or ends in an underscore.", "quantifier": "every pair of (namespace, name) pairs", "why_tests_cant": "All pairs of strings.", "anchors": ["pysqlsync/model/id_types.py: PrefixedId.local_id, QualifiedId.quoted_id", "pysqlsync/formation/py_to_sql.py: DataclassConverter.create_qualified_id"], "unrestricted_claim": "Two distinct (namespace, name) pairs map to distinct database object names; for engines without schemas (prefix mode) distinct pairs map to distinct prefixed names.", "refuted_by": "C19_prefixed_names_collide"}
{"id": "C20", "title": "Scripts are split into exactly their statements", "statement": "On engines that accept one statement at a time, executing a script executes precisely the generated statements, in order, none lost, merged or cut, exactly if no statement has a semicolon at the end of one of its lines (Redshift, Oracle) and the script does not start with a PL/SQL block followed by other statements (Oracle); a single PL/SQL block is executed whole.", "quantifier": "every list of generated statements", "why_tests_cant": "Arbitrary statement texts incl. literals with semicolons and newlines.", "anchors": ["pysqlsync/dialect/oracle/connection.py: OracleContext._execute", "pysqlsync/dialect/redshift/connection.py: RedshiftContext._execute"], "unrestricted_claim": "On engines that accept one statement at a time (Oracle, Redshift), executing a script executes precisely the generated statements, in order, none lost, merged or cut.", "refuted_by": "C20_splitting_fails, C20_oracle_block_first_fails"}
{"id": "C21", "title": "Batching loses, duplicates and reorders nothing", "statement": "Records supplied to insert/upsert/delete reach the driver in the original order, each exactly once, in non-empty batches of at most BATCH_SIZE records, all but the last full.", "quantifier": "every finite sequence of records (synchronous or asynchronous)", "why_tests_cant": "The batch boundary lies at 100000 records; all lengths.", "anchors": ["pysqlsync/base.py: IterableDataSource.batches, AsyncIterableDataSource.batches, BATCH_SIZE"]}
{"id": "C22", "title": "Each value lands in the column it was labelled with", "statement": "insert_rows and upsert_rows with field_names and field_types, and insert_data and upsert_data: whenever the driver accepts the parameters, the k-th parameter sent for each record is the (transformed) field of the record labelled with the name of the k-th column in the statement. For upsert_rows, and insert_rows on PostgreSQL and Redshift, always; for insert_rows elsewhere exactly if fields that are labelled but omitted by their type are those of identity columns; for upsert_data and insert_data exactly if the columns of the table are known in the order of the fields of the class.", "quantifier": "every table, label tuple, type tuple and record", "why_tests_cant": "All permutations and omissions of fields.", "anchors": ["pysqlsync/base.py: BaseContext._generate_records, _insert_rows, _upsert_rows, SelectorDataSource, TransformerDataSource, SelectorTransformerDataSource, BaseGenerator.get_table_insert_stmt, get_table_upsert_stmt"], "unrestricted_claim": "For insert_rows/upsert_rows with field_names and field_types, the k-th bind parameter's value of each record sent to the driver is the (transformed) record field labelled with the name of the k-th column in the statement; omitted fields reach no column.", "refuted_by": "C22_omitted_but_labelled_misplaced, C22_insert_data_other_order_misplaced"}
{"id": "C23", "title": "Enumeration labels are stored as keys that resolve back", "statement": "For a column referencing a lookup table, each stored key resolves (through the lookup table as it is after the call) to the label supplied; existing label/key assignments never change, each label has one key, NULL stays NULL.", "quantifier": "every lookup table content, every sequence of batches", "why_tests_cant": "State accumulates over batches and calls.", "anchors": ["pysqlsync/base.py: EnumTransformer.get, EnumListTransformer.get, BaseEnumTransformer._merge_lookup_table, get_enum_transformer, get_enum_list_transformer"]}
{"id": "C24", "title": "Upsert behaves like a map update", "statement": "After upserting a list of records with values for all columns into a table, the table maps each supplied key to the last record supplied for it and is unchanged elsewhere, and repeating the call changes nothing, if generated values are those of the primary key, and the statement matches by the primary key only: on PostgreSQL for all tables, on MySQL for tables without other unique keys, elsewhere for tables without other unique keys or generated values. No key ever occurs twice. The conditions cannot be dropped.", "quantifier": "every table content and record list, each dialect's statement", "why_tests_cant": "All contents and histories.", "anchors": ["pysqlsync/base.py: get_table_upsert_stmt, upsert_rows, upsert_data", "pysqlsync/dialect/postgresql/generator.py: get_table_upsert_stmt", "pysqlsync/dialect/mysql/generator.py: get_table_upsert_stmt"], "unrestricted_claim": "After upserting a list of records into a table the table maps each supplied key to the last record supplied for it and is unchanged elsewhere; repeating the call changes nothing.", "refuted_by": "C24_identity_key_fails, C24_mysql_other_key_fails, C24_merge_other_key_fails, C24_repeated_call_refused"}
{"id": "C25", "title": "Upsert changes only the supplied columns", "statement": "upsert_rows with a subset of the table's columns leaves the other columns of matched rows unchanged: always with MERGE (all engines but PostgreSQL and MySQL); on PostgreSQL and MySQL if all columns outside the primary key are supplied, whereas each column that is not supplied is reset to its default in the row that matches (tables without other unique keys).", "quantifier": "every table, subset of columns, content and record", "why_tests_cant": "All subsets.", "anchors": ["pysqlsync/base.py: get_table_upsert_stmt", "pysqlsync/dialect/postgresql/generator.py: get_table_upsert_stmt", "pysqlsync/dialect/mysql/generator.py: get_table_upsert_stmt"], "unrestricted_claim": "upsert_rows with a subset of the table's columns leaves the other columns of matched rows unchanged.", "refuted_by": "C25_unsupplied_column_reset, C25_city_erased"}
{"id": "C26", "title": "Delete removes exactly the given keys", "statement": "delete_rows/delete_data removes the rows whose primary key is listed and no others; insert-or-ignore (merge) never alters an existing row.", "quantifier": "every table content and key list", "why_tests_cant": "All contents.", "anchors": ["pysqlsync/base.py: get_table_delete_stmt, delete_rows, get_table_merge_stmt"]}
{"id": "C27", "title": "Result sets are converted without loss", "statement": "query_all with a scalar or tuple signature returns the rows in order with unchanged values, raising iff there are rows and the column count does not match. Data-class signatures, if columns have different names, assign each column to the field of the same name on PostgreSQL, MySQL and SQL Server, with the exact condition for an error; on Oracle, which assigns by position, exactly if the columns are the first fields in the same order.", "quantifier": "every result set", "why_tests_cant": "All shapes and lengths.", "anchors": ["pysqlsync/resultset.py: resultset_unwrap_tuple, resultset_unwrap_dict, resultset_unwrap_object"], "unrestricted_claim": "query_all with a scalar or tuple signature returns the rows in order with unchanged values, raising iff the column count does not match; data-class signatures assign each column to the field of the same name.", "refuted_by": "C27_oracle_swaps, C27_same_name_lost"}
{"id": "C28", "title": "Exported data reads back", "statement": "Records written with TextWriter are read back by TextReader as the same records in the same order exactly if none of them is written as an empty line; otherwise reading always stops there without an error. In a tab-separated file with valid column names this happens exactly for a record of one empty text. The header is read back exactly if there are names without tabulator and newline.", "quantifier": "every list of records of every arity", "why_tests_cant": "A blank line in the middle of a file is one value away.", "anchors": ["pysqlsync/data/exchange.py: TextWriter, TextReader, AsyncTextReader"], "unrestricted_claim": "Objects written with TextWriter are read back by TextReader as the same records in the same order; reading never silently truncates.", "refuted_by": "C28_truncated, C28_empty_text_truncates"}
{"id": "C29", "title": "The common type of a union loses nothing", "statement": "compatible_type returns a type exactly if all the member types are of one kind (integers, floating-point numbers, strings, bytes, or the same type), and that type represents every value of each member type, exactly unless the members differ and one is an unsigned integer type of the greatest width that has values beyond the signed type of this width, or one is a string or binary type without a length and another has a length beyond what such a type holds (char: 1, MySQL: 16777215); the result does not depend on grouping or order. Distinct integer types of Oracle are refused.", "quantifier": "every non-empty list of SQL data types of a dialect, with any width, bounds, length", "why_tests_cant": "Unbounded parameters (width, limit, precision).", "anchors": ["pysqlsync/model/data_types.py: compatible_type, _compatible_type, max_or_none"]}
{"id": "C30", "title": "Type names survive discovery", "statement": "On PostgreSQL, MySQL, SQL Server and Oracle, a data type written to DDL and re-read by discovery from what the server reports is the same data type, so that a second synchronization sees no change, exactly for the data types in Spec.Kept; the outcome for each Python type and annotation is determined.", "quantifier": "every data type in the ANSI repertoire and all parameters", "why_tests_cant": "Unbounded parameters.", "anchors": ["pysqlsync/formation/data_types.py: SqlDiscovery.sql_data_type_from_spec, sql_data_type_from_name, sql_data_type_from_def", "pysqlsync/model/data_types.py: __str__ methods"], "unrestricted_claim": "A data type written to DDL and re-read from its name/definition by discovery is the same data type, so that a second synchronization sees no change.", "refuted_by": "C30_integer_range_fails, C30_user_type_fails, C30_mysql_enum"}
{"id": "C31", "title": "Integer columns are wide enough", "statement": "Every value of a Python fixed-width integer type fits the SQL column type it is mapped to, exactly if the type is signed or uint8, or the engine is Snowflake, or it is Oracle and the type is not uint64; with the types of the PostgreSQL extension for all types. Annotated integers fit if signed and of 2, 4 or 8 bytes, whatever else is annotated; without, they do not.", "quantifier": "every fixed-width integer type and every value", "why_tests_cant": "All values.", "anchors": ["pysqlsync/formation/py_to_sql.py: simple_type_to_sql_data_type"], "unrestricted_claim": "Every value of a Python fixed-width integer type fits the SQL column type it is mapped to.", "refuted_by": "C31_unsigned_too_small, C31_annotated_unsigned_too_small, C31_annotated_byte"}
{"id": "C32", "title": "Generated foreign keys resolve", "statement": "In the catalog produced from any set of data-classes, no two tables of which get the same name, every foreign key refers to an existing column of a table in the same catalog, from an existing column of its own table with the same type, the primary key column exists, and the tables are exactly those called for.", "quantifier": "every finite set of data-class definitions and converter options", "why_tests_cant": "Type graphs of arbitrary shape.", "anchors": ["pysqlsync/formation/py_to_sql.py: dataclasses_to_catalog, dataclass_to_table, dataclass_to_constraints, _enum_table"], "unrestricted_claim": "In the catalog produced from any set of data-classes every foreign key refers to an existing column of a table in the same catalog, from an existing column of its own table, and the primary key column exists.", "refuted_by": "C32_name_clash_fails"}
{"id": "C33", "title": "Lists and sets of entities become faithful join tables", "statement": "A field list[E]/set[E] becomes a join table with a key and one foreign key to each side (if these get different column names). For lists it can represent every assignment of lists of E to owners, up to order; for sets exactly those assignments in which no item belongs to two owners.", "quantifier": "every entity, field and assignment", "why_tests_cant": "All assignments.", "anchors": ["pysqlsync/formation/py_to_sql.py: dataclasses_to_catalog (join tables), _get_relationship"], "unrestricted_claim": "A field list[E]/set[E] becomes a join table with a key, one foreign key to each side, able to represent every assignment of lists (sets) of E to owners.", "refuted_by": "C33_shared_item_fails, C33_column_clash_fails"}
{"id": "C34", "title": "Generated user-defined types resolve", "statement": "The user-defined data types that the generated columns and struct members refer to are all created by the same script, each in the schema that its name tells, exactly if each type that a field calls for is made. A field (other than one that becomes a join table) calls for a type by having an enumeration or a data-class without a key where these become types, any other class, a list or set of these that becomes an array (lists of structs also where structs do not become types), an inlined data-class or the key of a referenced entity or a member of a union that calls for it. Made are the enumerations with two members or more and the data-classes without a key, where these become types, in modules that have a table.", "quantifier": "every set of data-class and enumeration definitions whose tables get different names, every engine, all options", "why_tests_cant": "Arbitrary shapes incl. enumerations with one member, enumerations in other modules.", "anchors": ["pysqlsync/formation/py_to_sql.py: simple_type_to_sql_data_type, dataclasses_to_catalog"], "unrestricted_claim": "Every user-defined data type a generated column or struct member refers to is created by the same script.", "refuted_by": "C34_single_member_fails, C34_module_without_table_fails, C34_inline_list_fails, C34_other_class_fails"}
{"id": "C35", "title": "No declared constraint is lost", "statement": "Every foreign key, enumeration and range restriction declared on a data-class field yields its own constraint in the table on engines that have such constraints, and generated constraint names within a table never clash. Uniqueness declared on a field yields a constraint exactly on engines with foreign keys.", "quantifier": "every data-class definition", "why_tests_cant": "Naming collisions depend on arbitrary class and field names.", "anchors": ["pysqlsync/formation/py_to_sql.py: dataclass_to_table, dataclass_to_constraints, create_*_name"], "unrestricted_claim": "Every uniqueness, foreign key, enumeration and range restriction declared on a data-class field yields its own constraint in the table; generated constraint names within a table never clash.", "refuted_by": "C35_unique_lost, C35_unique_list_fails, C35_names_across_tables_fails"}
{"id": "C36", "title": "Discovered multi-column constraints are reassembled exactly", "statement": "Feeding the rows (constraint, column[, target]) of the information schema to the factories yields one constraint per name with columns in row order; a name with two target tables is refused; a list of constraints written as rows comes back. (The rows that Oracle's query yields for composite foreign keys, and the positional pairing of the ANSI query, are not such rows.)", "quantifier": "every finite row sequence", "why_tests_cant": "All interleavings of rows.", "anchors": ["pysqlsync/formation/constraints.py: UniqueFactory, ForeignFactory"], "unrestricted_claim": "Feeding the rows (constraint, column[, target]) of the information schema yields one constraint per name with columns in row order; a name with two target tables is refused.", "refuted_by": "C36_oracle_multiplies, C36_position_mispairs"}
{"id": "C37", "title": "Merging catalogs keeps everything or refuses", "statement": "Catalog.merge results in a catalog holding exactly the objects of both, or raises when two definitions of an object differ; merging is idempotent.", "quantifier": "every pair of catalogs", "why_tests_cant": "All pairs.", "anchors": ["pysqlsync/formation/object_types.py: Catalog.merge, Namespace.merge"]}
{"id": "C38", "title": "Object collections behave like ordered maps", "statement": "Any sequence of add/remove/reorder/sort on a collection of named objects behaves like an insertion-ordered map keyed by name: lookups, difference and intersection agree with set semantics, adding an existing name raises and changes nothing.", "quantifier": "every operation sequence", "why_tests_cant": "All histories.", "anchors": ["pysqlsync/formation/object_dict.py: ObjectDict"]}
{"id": "C39", "title": "Schemas are created in reference order", "statement": "After sorting, each namespace comes after the namespaces it references by foreign keys, column types or members of composite types, no namespace is lost, and namespaces that reference each other are refused. (Element types of arrays do not count as references.)", "quantifier": "every catalog", "why_tests_cant": "Arbitrary reference graphs.", "anchors": ["pysqlsync/formation/object_types.py: Catalog.sort, Namespace.get_referenced_namespaces"], "unrestricted_claim": "After sorting, each namespace comes after the namespaces it references (unless they reference each other), and no namespace is lost.", "refuted_by": "C39_array_not_noticed"}
{"id": "C40", "title": "SSL mode guarantees", "statement": "On PostgreSQL and MySQL, for every behaviour of the network: with require/verify-ca/verify-full no plaintext connection is ever attempted; verify-* always verify; disable never uses TLS; prefer/allow try their preferred mode first and fall back exactly after a connection error, at most once. Oracle always connects in plain text and SQL Server never verifies, whatever the mode.", "quantifier": "every SSL mode and every outcome of connection attempts", "why_tests_cant": "Failure combinations.", "anchors": ["pysqlsync/connection.py: create_context", "pysqlsync/dialect/postgresql/connection.py: PostgreSQLConnection.open", "pysqlsync/dialect/mysql/connection.py: MySQLConnection.open"], "unrestricted_claim": "With require/verify-ca/verify-full no plaintext connection is ever attempted; verify-* always verify; disable never uses TLS; prefer/allow try their preferred mode first and fall back at most once.", "refuted_by": "C40_oracle_always_plain, C40_mssql_never_verifies"}
{"id": "C41", "title": "Connection strings round-trip and never leak the password", "statement": "str(ConnectionParameters) does not depend on the password, and parsing it back yields the same host, port, user, database and SSL mode, for a domain name as host, exactly if the port is not 0, the user is not empty, and the name of the database is not empty and needs no quoting. A connection string made of any user and password is taken apart into these.", "quantifier": "every parameter set", "why_tests_cant": "All strings.", "anchors": ["pysqlsync/connection.py: ConnectionParameters.__str__", "pysqlsync/factory.py: get_parameters"], "unrestricted_claim": "str(ConnectionParameters) does not depend on the password, and parsing it back yields the same host, port, user, database and SSL mode.", "refuted_by": "C41_round_trip"}
{"id": "C42", "title": "Synthetic data respects its schema", "statement": "random_objects, whatever the random choices, yields the requested number of objects, whose integer primary keys are a permutation of 0..count-1, hence distinct, and whose other fields have values of their types within the declared length/range bounds, unless a range refines a fixed-width type; it succeeds for types that have producible values.", "quantifier": "every count, class definition and random choice sequence", "why_tests_cant": "All random outcomes.", "anchors": ["pysqlsync/data/generator.py: RandomGenerator, random_objects"], "unrestricted_claim": "random_objects yields the requested number of objects with pairwise distinct integer primary keys, and values within the declared length/range bounds.", "refuted_by": "C42_key_range_fails, C42_refined_range_fails, C42_min_length_fails, C42_unique_fails"}
{"id": "C43", "title": "Dialect registry is a map", "statement": "After any sequence of register/unregister calls get_dialect returns the engine last registered under the name, duplicates are refused.", "quantifier": "every call history", "why_tests_cant": "All histories.", "anchors": ["pysqlsync/factory.py: register_dialect, unregister_dialect, get_dialect"]}
{"id": "C44", "title": "Namespace mapping is one-to-one", "statement": "A module-to-schema mapping is accepted exactly if it names no schema twice; it then sends distinct modules to distinct names, and exactly the unmapped modules are refused. Distinct names are distinct schemas, except that None and the empty name denote the same.", "quantifier": "every mapping", "why_tests_cant": "All mappings.", "anchors": ["pysqlsync/formation/py_to_sql.py: NamespaceMapping"], "unrestricted_claim": "An accepted module-to-schema mapping sends distinct modules to distinct schemas, and unmapped modules are refused.", "refuted_by": "C44_default_and_empty"}
{"id": "C45", "title": "SQL text means the statement", "statement": "The text emitted for each DDL statement tokenizes, under SQL lexical rules, to exactly the token sequence of that statement, in one way only, and a script is read as exactly its statements: names, labels and comments cannot merge with neighbouring syntax. This holds for arbitrary names, comments and labels, except labels with a backslash on MySQL, Delta and Snowflake, comments with NUL on Delta and Snowflake, and names of schemas with a quote on SQL Server; SQL fragments supplied by the user must be lexable themselves.", "quantifier": "every statement with arbitrary names and literals", "why_tests_cant": "All names and literals.", "anchors": ["pysqlsync/formation/object_types.py: *.create_stmt, drop_stmt, alter_table_stmt", "pysqlsync/formation/mutation.py"], "unrestricted_claim": "The text emitted for each DDL statement tokenizes, under SQL lexical rules, to exactly the token sequence of that statement: names and literals cannot merge with neighbouring syntax.", "refuted_by": "C45_schema_name_fails, C45_label_fails"}
{"id": "C46", "title": "Descriptions stay in sync as comments", "statement": "After a schema change on PostgreSQL or MySQL that the database executes, the comment stored in the database for each table and column of the target (and on PostgreSQL for each composite type) is the description (docstring) of the target (on MySQL its first line), whether the object is new, changed or unchanged and whether the description appeared, changed or went away, exactly if (on PostgreSQL) no column that is converted to an integer key has the same non-empty description before and after; the comments of those columns, and only those, are lost.", "quantifier": "every pair of schemas and every set of descriptions", "why_tests_cant": "Every combination of kept, converted, added and dropped columns with old and new descriptions.", "anchors": ["pysqlsync/dialect/postgresql/mutation.py: mutate_table_stmt, mutate_struct_stmt", "pysqlsync/dialect/postgresql/object_types.py: create_stmt", "pysqlsync/dialect/mysql/mutation.py: mutate_table_stmt", "pysqlsync/dialect/mysql/object_types.py: create_stmt, comment"], "unrestricted_claim": "After a schema change on PostgreSQL or MySQL, the comment stored in the database for each table and column of the target (and on PostgreSQL for each composite type) is the description (docstring) of the target, whether the object is new, changed or unchanged and whether the description appeared, changed or went away.", "refuted_by": "C46_comment_of_converted_column_is_lost"}
{"id": "C47", "title": "Deploying a program from scratch", "statement": "Creating the database objects of a Python program (modules with data-classes, enumerations, references, lists) in an empty database succeeds: the database accepts every emitted statement in order, and afterwards it contains exactly the tables the program calls for (including the tables of lists and sets of entities and the lookup tables of enumerations), whose columns are the fields with their types, nullability, defaults and generated values, whose keys, foreign keys and unique constraints are those declared, and the enumeration and composite types with their labels and fields; nothing refers to an object that does not exist. This holds for every program in which tables, columns and types have distinct names (no join table or type has the name of another table or type, no join column that of its other side), names are Python identifiers, labels are not repeated, keys are mandatory scalars, generated values are mandatory and have no default, lists are not unique, each type that a column mentions belongs to a module that has a table (of the same module, for items of lists) and to a schema unless it is the only module, and defaults are supported by the engine (none for Delta, no points in time for Snowflake).", "quantifier": "every program (any number of modules, classes, fields, enumerations, nesting) under the conditions in the statement, every engine and option setting", "why_tests_cant": "All programs: end-to-end composition of conversion, ordering and emission for every combination of features.", "anchors": ["pysqlsync/formation/py_to_sql.py: dataclasses_to_catalog", "pysqlsync/formation/mutation.py: mutate_catalog_stmt", "pysqlsync/formation/object_types.py: create_stmt", "pysqlsync/base.py: BaseGenerator.create"], "unrestricted_claim": "Creating the database objects of a Python program (modules with data-classes, enumerations, references, lists) in an empty database succeeds: the database accepts every emitted statement in order, and afterwards it contains exactly the tables the program calls for, whose columns are the fields with their types, nullability, defaults and generated values, whose keys, foreign keys and unique constraints are those declared, and the enumeration and composite types with their labels and fields; nothing refers to an object that does not exist.", "refuted_by": ["C47_delta_default_fails", "C47_extensible_enum_fails", "C47_generated_default_fails", "C47_generated_optional_fails", "C47_list_of_other_module_fails", "C47_module_without_schema_fails", "C47_module_without_table_fails", "C47_optional_key_fails", "C47_repeated_label_fails", "C32_name_clash_fails", "C33_column_clash_fails", "C35_unique_list_fails"]}
{"id": "C48", "title": "Columns hold the values of their fields", "statement": "The column created for a field of type str (with or without a maximum length), datetime or time (with or without a precision), Decimal (with or without a precision) or float holds every value of that type, i.e. a string of the declared length is not cut and the microseconds of a point in time, the digits of a decimal number and the significand of a floating-point number are kept, exactly for the engines and parameters given by an explicit criterion for each of these types (strings without a declared length: up to 16 MB).", "quantifier": "every engine, every declared length, precision and scale, every list of annotations, every value", "why_tests_cant": "All values and all parameters.", "anchors": ["pysqlsync/formation/py_to_sql.py: simple_type_to_sql_data_type", "pysqlsync/model/data_types.py: SqlVariableCharacterType, SqlTimestampType, SqlTimeType, SqlDecimalType, SqlFloatType", "pysqlsync/dialect/*/data_types.py", "pysqlsync/dialect/*/generator.py: substitutions"], "unrestricted_claim": "The column created for a field of type str (with or without a maximum length), datetime or time (with or without a precision), Decimal (with or without a precision) or float holds every value of that type: a string of the declared length is not cut, the microseconds of a point in time, the digits of a decimal number and the significand of a floating-point number are kept.", "refuted_by": "C48_text_fails, C48_float_precision_fails"}
{"id": "C49", "title": "Synchronization keeps the data of what both states share", "statement": "When a schema change is applied to a database with data and the database accepts the script, a table that is in both states keeps all its rows in place, a column that is in both states with the same type holds in every row the value it held, a column whose type changes holds the old value converted by the database to the new type, and no row is added (except labels added on MySQL to a lookup table that a converted column is to refer to); tables the library does not know are not touched unless their schema is dropped.", "quantifier": "every pair of schemas, every content of the tables, every dialect and option setting, every order of namespaces", "why_tests_cant": "All schema pairs, all data and all combinations of changes in the same and in other tables.", "anchors": ["pysqlsync/formation/mutation.py: Mutator.mutate_catalog_stmt, mutate_namespace_stmt, mutate_table_stmt, mutate_column_stmt", "pysqlsync/dialect/postgresql/mutation.py", "pysqlsync/dialect/mysql/mutation.py", "pysqlsync/formation/object_types.py: drop_stmt, soft_drop_stmt, alter_table_stmt"]}
{"id": "C50", "title": "Lookup tables hold the members of their enumerations", "statement": "If tables are to be initialized (initialize_tables), then after the objects of a program have been created, the lookup table of an enumeration that becomes a table lists the members of the enumeration, each once, in the order of their definition, with distinct generated keys; likewise for a lookup table that is new when an existing database is synchronized. A lookup table that exists already keeps the labels it has.", "quantifier": "every program, engine and option setting, every state of the database before", "why_tests_cant": "All programs, all members and all schema changes that accompany the creation of the table.", "anchors": ["pysqlsync/formation/object_types.py: EnumTable.create_stmt", "pysqlsync/formation/py_to_sql.py: _enum_table", "pysqlsync/formation/mutation.py: mutate_namespace_stmt, migrate_enum_stmt, mutate_table_stmt"], "unrestricted_claim": "If tables are to be initialized (initialize_tables), then after the objects of a program have been created, or an existing database has been synchronized, the lookup table of an enumeration that becomes a table lists the members of the enumeration, each once, in the order of their definition, with distinct generated keys.", "refuted_by": "C50_new_members_are_ignored"}
{"id": "C51", "title": "A PostgreSQL database is read back as what it is", "statement": "Exploring a schema of a PostgreSQL database that has the tables, types and keys which a description lists returns a description with the same content (up to the order in which things are listed) exactly if the schema is not empty, has no check conditions, discriminated keys or integer ranges, no enumeration without labels, no array members in composite types, only types and texts that the catalog reports under their own names, and only such defaults as are reported as they were written: numbers without a sign and points in time, but not truth values, negative numbers or texts. A connection that discovers or synchronizes such a database then believes what the database is, and synchronizing it with what it already is sends nothing that changes it. With a check condition in the schema (such as the library itself creates for integer ranges) the second synchronization is refused.", "quantifier": "every schema of every database, every order of catalog rows, every sequence of rows for compound keys", "why_tests_cant": "Any number of tables, columns, keys, types and comments in any order reported by the server.", "anchors": ["pysqlsync/dialect/postgresql/discovery.py: PostgreSQLExplorer", "pysqlsync/formation/data_types.py: SqlDiscovery", "pysqlsync/base.py: BaseContext.discover, BaseEngine explorers"]}
{"id": "C52", "title": "MySQL, SQL Server and Oracle databases that are as described need no change", "statement": "If the tables of a MySQL, SQL Server or Oracle database are those that a description lists, then discovering the database and comparing it with the description gives an empty script, and synchronizing it executes nothing, exactly if: every column has a type that is recognized under the name by which the server reports it and a default that the server reports as written; there are no check conditions; foreign keys refer to tables whose names can be told from their prefix (MySQL, Oracle), have one column (Oracle), or refer to a named schema and to the columns in the order of the key (SQL Server); descriptions on MySQL do not begin with an empty line; and the server has no other table whose name begins with the name of one of the namespaces and two underscores (MySQL, Oracle: such tables of other namespaces are dropped) or that is in one of the schemas (SQL Server).", "quantifier": "every table, every database of any number of tables in any number of namespaces, any order in which the server reports rows, any way in which the server reports defaults", "why_tests_cant": "Any number of tables and namespaces with arbitrary names, columns, keys and defaults; a test checks single tables on one server.", "anchors": ["pysqlsync/formation/discovery.py: AnsiExplorer", "pysqlsync/dialect/mysql/discovery.py: MySQLExplorer", "pysqlsync/dialect/mssql/discovery.py: MSSQLExplorer", "pysqlsync/dialect/oracle/discovery.py: OracleExplorer", "pysqlsync/base.py: Explorer.discover, synchronize"]}
{"id": "C53", "title": "Data-classes generated from tables", "statement": "A data-class is generated from a table exactly if Python has a type for each column (no binary data, intervals, inline enumerations or structures), the column names (with an underscore added to key words) are different identifiers, and the schemas of the table and of the tables that its columns refer to are mapped to modules. It has one field per column, those without default first, otherwise in the order of the columns; a field has the name, type, nullability and default of its column, or refers to the class of the table that the last foreign key of the column refers to. Converted into a column again by an engine, a field that refers to no other class gives the same column (but for the description) exactly if its type is one that the engine gives to the type of Python (such as integers of 2, 4 and 8 bytes, texts and times of that engine), it has no default and no identity, and its name is no key word. The primary key is never restored, so that no table can be made from the class.", "quantifier": "every table with any number of columns and constraints, every column type with any parameters, every engine and mode, every mapping of schemas", "why_tests_cant": "Unbounded tables, names, limits and precisions; the only test of the feature is skipped.", "anchors": ["pysqlsync/formation/sql_to_py.py: sql_type_to_python, safe_id, SqlConverter", "pysqlsync/formation/py_to_sql.py: member_to_column, dataclass_to_table"]}
{"id": "C54", "title": "Values are bound in a form that their columns hold", "statement": "When objects are inserted or updated, the value of a field with a UUID, an address or a time of day is passed to the driver in a form that the column of the field stores as this value exactly if the engine takes such values as they are (PostgreSQL; times of day except for Oracle), or the type of the field has neither annotation nor Optional; for a field with addresses of either kind exactly if the engine is PostgreSQL, or the field is not Optional and the address is an IPv6 address or the engine is Oracle or Redshift; for a member of an enumeration exactly if the field is not Optional, and values are kept in place as strings that fit, or as integers with a check. NULL is passed as such. When records are inserted or updated or keys are deleted with given types, UUIDs, addresses and times of day are always passed in such a form; documents are passed as JSON text of the value, which the column stores as long as it fits, exactly if they consist of None, truth values, integers, strings, lists and dictionaries. Documents in objects are passed as they are, sets in records are refused, and delete_data passes keys as they are.", "quantifier": "every engine with a driver, every mode, every field with any annotations, every UUID, address, time, enumeration and member, every document of any depth", "why_tests_cant": "All values, in particular all documents and strings; the tests use a few fields on each engine.", "anchors": ["pysqlsync/base.py: get_field_extractor, get_value_transformer, _get_transformer, _delete_rows, delete_data, _JSON_ENCODER", "pysqlsync/dialect/mysql/generator.py, oracle/generator.py, mssql/generator.py, redshift/generator.py: get_field_extractor, get_value_transformer", "pysqlsync/formation/inspection.py: is_ip_address_type"], "unrestricted_claim": "Every value of a field is passed to the driver in a form that the column of the field stores as this value.", "refuted_by": "C54_extracted, C54_addresses, C54_enum (right to left), C54_json_objects_fail, C54_set_fails, C54_delete_data"}
{"id": "C55", "title": "Rows copied into Redshift arrive as they were", "statement": "Rows of None, truth values, integers and strings that are inserted in Redshift by a stream are read by the server as the same rows with the same values exactly if none of the values is None and no string has a vertical bar or a newline or is the mark for NULL. Bytes, with which UUIDs and addresses are passed, never arrive: their text is not hexadecimal.", "quantifier": "every number of rows of any width, every string and integer", "why_tests_cant": "All strings; no test has access to Redshift.", "anchors": ["pysqlsync/dialect/redshift/connection.py: RedshiftContext._insert_copy_stream, insert_data, _insert_rows"], "unrestricted_claim": "Rows that are inserted in Redshift arrive with the same values.", "refuted_by": "C55_exact (left to right), C55_bytes_fail"}
{"id": "C56", "title": "The properties of a field are the ones that its type says", "statement": "For a class or a union of classes, and Optional, PrimaryKey, Identity, Unique and other annotations written around it in any order and any number of times, get_field_properties returns this class, and says that the field is nullable, a key, generated or unique exactly if this was written, with the other annotations, exactly if Identity is not written inside of Optional or Identity, and Optional is not written inside of an annotation that is inside of Optional or Identity. A class is recognized as an entity exactly if it has a field with PrimaryKey that is not inside of Optional or Identity; if PrimaryKey is so in all fields, the name and the type of the key are those of one field, which has the property of a key. The type without the tags of keys and constraints says the same of the class and of the other annotations.", "quantifier": "every class and union of classes, every sequence of wrappers of any length, every class with any number of fields", "why_tests_cant": "All nestings of wrappers; the tests use a handful of them.", "anchors": ["pysqlsync/model/properties.py: get_field_properties, is_primary_key_type, is_identity_type, is_unique_type, FieldProperties.field_type", "pysqlsync/formation/inspection.py: dataclass_has_primary_key, dataclass_primary_key_name, dataclass_primary_key_type", "pysqlsync/model/key_types.py: PrimaryKey, Identity, Unique"], "unrestricted_claim": "The properties of a field are what was written around its class, in any order; a class is an entity exactly if one of its fields has the property of a key.", "refuted_by": "C56_exact_criterion (left to right), C56_optional_identity_fails, C56_identity_key_fails"}
{"id": "C57", "title": "make_entity adds a key and changes nothing else", "statement": "For a class whose fields have different names, make_entity with the name of a field returns a class whose key is this field, which comes first; the others follow in their order; all fields have the same constant defaults and the same properties as before, except that the chosen field is a key. It succeeds exactly if there is a field of the name, all fields have a constant default if the chosen one has, and the others with a constant default come last. Default factories are lost.", "quantifier": "every class with any number of fields of any types, every name", "why_tests_cant": "All classes, in particular all combinations of defaults and annotations.", "anchors": ["pysqlsync/model/entity_types.py: make_entity, key_value_fields"], "unrestricted_claim": "make_entity preserves all defaults.", "refuted_by": "C57_factory_fails"}
{"id": "C58", "title": "flatten_dataclass keeps every field once", "statement": "The fields of the flat class are exactly the fields of the class whose types are not data-classes without a key, and the fields of such data-classes under the joint name with two underscores, in both cases with the type and constant default that they had. Their names are different if the names of the fields of the class do not contain two underscores next to each other or end in an underscore. Whether a nested data-class is optional is lost.", "quantifier": "every class with any number of fields, every nested class", "why_tests_cant": "All classes and names; a test has one class.", "anchors": ["pysqlsync/util/dataclasses.py: flatten_dataclass"], "unrestricted_claim": "Names of the fields of a flat class are different, and a field is optional in it if it may be missing in the nested object.", "refuted_by": "C58_clash_fails, C58_optional_fails"}
{"id": "C59", "title": "Automatic defaults are the zero values of the types", "statement": "With auto_default, every column is as without, except for its default; and a column that has a default, may be NULL, is a key or is generated has the same default as without. A mandatory column for a truth value, number, string or point in time has the zero of its type as default, for an enumeration its first member, for a reference the zero of the key of the entity; there is no default for lists, sets and data-classes without a key, and all other mandatory columns of one value have one, or the program is refused, for scalars exactly if the type has no zero constant. All engines but MySQL do so.", "quantifier": "every engine but MySQL, every mode, every field of any type, all classes and enumerations of a program", "why_tests_cant": "All types, modes and engines; no test sets the option.", "anchors": ["pysqlsync/formation/py_to_sql.py: DataclassConverter.member_to_column, DataclassConverterOptions.auto_default", "pysqlsync/base.py: GeneratorOptions.auto_default", "pysqlsync/model/data_types.py: constant", "pysqlsync/dialect/*/generator.py"], "unrestricted_claim": "With auto_default, whatever is accepted without it is accepted, and every mandatory column has a default of its own type, on every engine.", "refuted_by": "C59_mysql_fails, C59_date_fails, C59_label_for_key_fails"}
{"id": "C60", "title": "drop_schema removes a namespace and nothing else", "statement": "drop_schema with the name of a namespace removes the schema with all objects in it (on MySQL and Oracle: all tables whose names begin with the name and two underscores); all other objects remain. On PostgreSQL, Redshift and Delta it is never refused, nothing refers to anything missing afterwards, and other objects are unchanged exactly if none of them refers to an object of the schema. On SQL Server it is refused exactly if a table outside refers to one inside or there is a view in the schema, and everything else is unchanged otherwise; on MySQL exactly if a table outside refers to one inside; on Oracle exactly if another user has a table with the prefix, and other tables are unchanged exactly if none refers to a dropped one; on Trino unless the schema is there and empty. create_schema creates the schema and changes nothing else; if it is there already, the call is refused exactly on engines without IF NOT EXISTS.", "quantifier": "every engine, every name (without backslash on MySQL), every valid database with any number of objects and any references between them", "why_tests_cant": "All databases and names; tests drop a fixed schema and ignore failures.", "anchors": ["pysqlsync/base.py: BaseContext.create_schema, BaseContext.drop_schema", "pysqlsync/dialect/mysql/connection.py, mssql/connection.py, oracle/connection.py: drop_schema", "pysqlsync/dialect/postgresql/object_types.py, delta/object_types.py, mssql/object_types.py: create_schema_stmt, drop_schema_stmt"], "unrestricted_claim": "drop_schema is never refused and changes nothing outside of the namespace, it undoes create_schema, and the connection knows that the objects are gone.", "refuted_by": "C60_others_fail, C60_prefix_fails, C60_create_drop_fails, C60_forgotten_fails, and the negative sides of C60_mssql_exact, C60_mysql_exact, C60_oracle_exact, C60_trino_exact"}
{"id": "C61", "title": "Declared parameter types fit the columns and their values", "statement": "On SQL Server and Oracle, upsert_rows, delete_rows and insert_rows declare the types of parameters to the driver. upsert_rows and delete_rows declare for each parameter the type of the column that the parameter is for; insert_rows does so exactly if the records have no value for an identity column. On SQL Server a declared parameter admits every integer, string, decimal number with declared precision, identifier and address that its column holds; a decimal number without declared precision exactly if it has at most 15 digits; a point in time or time of day exactly if it is in whole seconds. On Oracle it admits every value of a fixed-width integer type exactly if that is not uint32, every string not longer than declared, every decimal number with declared precision that the column holds, and every point in time. A type is declared for every Python type exactly except timedelta.", "quantifier": "every table, every order of labels, all records; every integer, string, decimal number, fraction of a second; every declared width, length and precision", "why_tests_cant": "All tables and orders of fields, all values up to the limits of types; tests insert a few small values.", "anchors": ["pysqlsync/dialect/mssql/data_types.py: sql_to_odbc_type", "pysqlsync/dialect/oracle/data_types.py: sql_to_oracle_type", "pysqlsync/dialect/mssql/connection.py, oracle/connection.py: _execute_typed, _internal_execute_typed", "pysqlsync/base.py: BaseContext._insert_rows, _upsert_rows, _delete_rows"], "unrestricted_claim": "Each parameter is declared with the type of its column, and admits whatever the column holds.", "refuted_by": "C61_identity_shifted, and the negative sides of C61_insert_exact, C61_mssql_time_exact, C61_mssql_decimal_exact, C61_oracle_integers_exact, C61_declared_exact"}
{"id": "C62", "title": "The text of data statements", "statement": "The text that the generator writes to insert, merge, upsert or delete rows consists exactly of the tokens of the intended statement: the table and the columns by their names (whatever characters are in them), and one placeholder for each parameter, in order and in the style of the engine's driver. On MySQL, whose driver forms the statement with Python's % operator, the values of a row get to their places exactly if there is no % in the name of the table or of any column, whatever the values are. A MERGE statement has a condition exactly if the parameters include a column of the primary key or a column that is unique by itself. Trino has no statement with parameters.", "quantifier": "every table, every order of labels, every name, every row of values, every engine", "why_tests_cant": "Names and values are arbitrary text; tests use a few ordinary names.", "anchors": ["pysqlsync/base.py: BaseGenerator.get_table_insert_stmt, get_table_merge_stmt, get_table_upsert_stmt, get_table_delete_stmt, _get_merge_preamble", "pysqlsync/dialect/*/generator.py: placeholder, get_table_insert_stmt, get_table_merge_stmt, get_table_upsert_stmt"], "unrestricted_claim": "The values of a row get to their places whatever the names are; a MERGE statement has a condition.", "refuted_by": "C62_percent_in_name, C62_identity_key_no_condition, and the negative sides of C62_percent_exact, C62_condition"}
{"id": "C63", "title": "What the database keeps after errors and lost connections", "statement": "When an operation of a connection returns, its work is durable. Whatever operations are called, whichever of them fail and whenever the connection is lost or the client dies, the database has all of the work of each operation that returned and a first part of the work of each of the others, in order. Of an operation with records, what is kept at a failure is a number of whole batches exactly on PostgreSQL, Oracle and SQL Server (and for insert_rows on PostgreSQL and Redshift); a script is executed as a whole or not at all exactly on PostgreSQL and SQL Server. An upsert that failed or was cut off after any number of records may be repeated: the table is then as if it had succeeded the first time.", "quantifier": "every sequence of operations, every batch, every position of a failure, every time at which the connection is lost", "why_tests_cant": "All histories and all points of failure, including the loss of a connection during a commit.", "anchors": ["pysqlsync/dialect/*/connection.py: open, _execute, _execute_all, _execute_typed, _insert_rows", "pysqlsync/base.py: BaseContext.execute, execute_all, _insert_rows, _upsert_rows"], "unrestricted_claim": "An operation with records, or a script, is executed as a whole or in whole batches on every engine.", "refuted_by": "C63_part_of_batch_committed_later, and the negative sides of C63_whole_batches_exact, C63_script_exact"}
{"id": "C64", "title": "Calls dispatched to worker threads behave like direct calls under every schedule", "statement": "On the engines whose driver is synchronous (SQL Server, Oracle, Redshift), every operation of a connection runs the driver's function in a worker thread. Under every schedule of the event loop and the threads, and wherever tasks are cancelled: a call that returns has run its function exactly once, from start to finish, between the call and its return, and returns its result or exception; a call that is cancelled has run it once or not at all, and never leaves it running; a task is seen to do exactly what it may do if each function is called directly. The driver sees one function at a time on a connection that a single task uses. No schedule deadlocks or goes on for ever as long as the driver's functions return. A connection that was opened by async with is closed last, unless the task is cancelled (again) while it is being closed.", "quantifier": "every number of tasks, every program of each (any calls, reacting to results, errors and cancellation in any way), every interleaving of event loop and threads, every point of cancellation", "why_tests_cant": "All interleavings and all points of cancellation; a test sees one schedule.", "anchors": ["pysqlsync/util/dispatch.py: thread_dispatch", "pysqlsync/dialect/mssql/connection.py, oracle/connection.py, redshift/connection.py: functions decorated with thread_dispatch", "pysqlsync/base.py: BaseConnection.__aenter__, __aexit__"]}
{"id": "C65", "title": "Several clients may write labels of the same enumerations at the same time", "statement": "Any number of processes insert or upsert records with enumeration columns into tables that refer to the same lookup tables, at the same time, while other programs may add labels. At any moment, every key that a client has sent for a label is the key of that label in the lookup table as it is then, and the label has no other key; rows of lookup tables are never changed or lost, and no label gets two keys. The batches that a client has sent are the first of those it was given, complete and in order. If the engine generates new keys, no statement of a client is refused and no label is missing because of what others do, and a client that has not failed can finish without waiting for others, even if these stopped in the middle of a batch.", "quantifier": "every number of clients, all batches and columns, every interleaving of their statements, labels added by other programs at any time, failure of any client at any point; each of the three forms of the insert-or-ignore statement", "why_tests_cant": "All interleavings of statements of several processes and all points of failure; a test sees one.", "anchors": ["pysqlsync/base.py: EnumTransformer.get, EnumListTransformer.get, _merge_lookup_table, SelectorTransformerDataSource.batches", "pysqlsync/base.py: get_enum_transformer, get_enum_list_transformer"]}
{"id": "C66", "title": "The Python code generated for classes defines the same classes", "statement": "The code that module_to_code writes for a module whose classes are enumerations and data classes (names that are ASCII identifiers, constants as values and default values, documentation strings of data classes of one line) is valid on its own and defines the same classes in the same order: enumerations with the same name, documentation, members in the same order with the same values and documentation; data classes with the same name, documentation, fields in the same order with their types and default values, and the same class variables (other than names like __x__). The same holds for enum_class_to_code and dataclass_to_code if `enum` or `dataclasses` is bound. Any string, with any quotes, backslashes, line ends, control or non-ASCII characters, is read back as it was. module_to_code raises NotImplementedError exactly if the module has another class. The limits: a field with a default factory or metadata makes the code fail with a NameError (`field` is not imported); a default value whose repr is in angle brackets (a member of an enumeration), a class without documentation, variables and fields, or an enumeration member named like a keyword makes it invalid.", "quantifier": "all modules with any number of classes, all names, values, strings, documentation and fields; every choice of which non-ASCII characters are printable", "why_tests_cant": "All strings and all combinations of classes, members, documentation and default values; tests compare the code of two classes.", "anchors": ["pysqlsync/python_types.py: module_to_stream, module_to_code, dataclass_to_stream, dataclass_to_code, enum_class_to_stream, enum_class_to_code", "pysqlsync/base.py: GeneratorBase.create"]}
{"id": "C67", "title": "Columns of tab-separated files are read with the type of their values", "statement": "fields_to_types gives each field of a data class, in order, the column it is mapped to and a type; it accepts a class exactly if the mapping (if there is one) has every field and the values of each field are all stored in the same way, or are IP addresses of both kinds. A reference to another class has the type of the key of that class (the first, if there are several). The order of the members of a union makes no difference. The columns are exactly those in the header that TextWriter writes with the same mapping. The limits: durations, JSON and unions of types stored differently have database columns but cannot be read; a mapping for some of the fields only is good for TextWriter but refused here.", "quantifier": "all classes, types and mappings; all orders of the members of unions", "why_tests_cant": "All types, unions and mappings; the tests read files of a few classes.", "anchors": ["pysqlsync/model/properties.py: tsv_type, FieldProperties.tsv_type", "pysqlsync/data/exchange.py: fields_to_types, TextWriter.__init__", "pysqlsync/formation/inspection.py: reference_to_key"]}
{"id": "C68", "title": "The connection string for SQL Server says what the parameters say", "statement": "If no host, user, password or database has a semicolon or begins with a brace, the ODBC driver gets exactly the server (with port), user, password and database that are given, and no other keywords than those the library sets. The limits: a password with a semicolon is cut there, and what follows is read as another attribute (so DATABASE=other in a password selects another database); the mode of encryption has no effect, the certificate of the server is always trusted.", "quantifier": "all connection parameters; all passwords with a semicolon; all modes of encryption", "why_tests_cant": "All texts of the parameters; the tests connect with the parameters of one server.", "anchors": ["pysqlsync/dialect/mssql/connection.py: MSSQLConnection.open"]}
