"""Run once (kept for the record): replaces the statements of properties whose first version turned out to be false of the code by exact ones.
The first version stays in the field "unrestricted_claim", with the theorems that refute it."""
import json
NEW = {
'C05': ("For every pair of columns with the same name: the ALTER/MODIFY clause emitted for the change, applied to the source column, yields a column with the target's data type, nullability, default and identity and changes nothing else, exactly if the change is not one of these: (where clauses list single changes: ANSI, PostgreSQL, Delta, Snowflake) giving up generated values together with NOT NULL or for a default; (Snowflake) setting a default that is written differently for its data type; (Oracle, Snowflake, Delta) keeping a default that is written differently for the new data type. On SQL Server it always does, and a change of identity is refused. No clause is emitted iff the attributes (and on MySQL the comments) already agree.",
  "C05_identity_to_nullable_refused, C05_snowflake_timestamp_default"),
'C11': ("If two states differ in something the library cannot express as a mutation (removed enumeration value, constraint with the same name but a different definition, identity change on SQL Server), synchronization raises an error; if it emits nothing then the states agree in schemas, types, labels, members, tables, columns and constraints. The one difference that is always ignored is that of primary keys: a table that differs in the primary key only yields no statement and no error.",
  "C11_primary_key_change_ignored, C06_primary_key_change_ignored"),
'C16': ("quote(s)/constant(v) yields a SQL literal that reads back as exactly s under the standard lexical rules, whatever follows, and different strings have different literals. Under the rules of servers that treat a backslash as an escape character it does so exactly if: on MySQL and Delta, every backslash in the string is followed by % or _; on Snowflake, it has no backslash.",
  "C16_quote_mysql_fails"),
'C17': ("The LIKE pattern built by drop_schema matches a table name iff the name starts with '<namespace>__': always under the standard lexical rules (Oracle), and on MySQL exactly if the namespace has no backslash.", "C17_mysql_exact"),
'C18': ("The comment literal emitted for a table/column description reads back, under the engine's string literal rules, as exactly the description: always on PostgreSQL, and on Delta and Snowflake exactly if no NUL character of the description is followed by two octal digits.", "C18_delta_exact, C18_snowflake_exact"),
'C19': ("Two distinct (namespace, name) pairs map to distinct database object names; for engines without schemas (prefix mode) two namespaces never share an object name exactly if neither prefix '<namespace>__' begins with the other, in particular if no namespace has a double underscore or ends in an underscore.", "C19_prefixed_names_collide"),
'C20': ("On engines that accept one statement at a time, executing a script executes precisely the generated statements, in order, none lost, merged or cut, exactly if no statement has a semicolon at the end of one of its lines (Redshift, Oracle) and the script does not start with a PL/SQL block followed by other statements (Oracle); a single PL/SQL block is executed whole.", "C20_splitting_fails, C20_oracle_block_first_fails"),
'C22': ("insert_rows and upsert_rows with field_names and field_types, and insert_data and upsert_data: whenever the driver accepts the parameters, the k-th parameter sent for each record is the (transformed) field of the record labelled with the name of the k-th column in the statement. For upsert_rows, and insert_rows on PostgreSQL and Redshift, always; for insert_rows elsewhere exactly if fields that are labelled but omitted by their type are those of identity columns; for upsert_data and insert_data exactly if the columns of the table are known in the order of the fields of the class.", "C22_omitted_but_labelled_misplaced, C22_insert_data_other_order_misplaced"),
'C24': ("After upserting a list of records with values for all columns into a table, the table maps each supplied key to the last record supplied for it and is unchanged elsewhere, and repeating the call changes nothing, if generated values are those of the primary key, and the statement matches by the primary key only: on PostgreSQL for all tables, on MySQL for tables without other unique keys, elsewhere for tables without other unique keys or generated values. No key ever occurs twice. The conditions cannot be dropped.", "C24_identity_key_fails, C24_mysql_other_key_fails, C24_merge_other_key_fails, C24_repeated_call_refused"),
'C25': ("upsert_rows with a subset of the table's columns leaves the other columns of matched rows unchanged: always with MERGE (all engines but PostgreSQL and MySQL); on PostgreSQL and MySQL if all columns outside the primary key are supplied, whereas each column that is not supplied is reset to its default in the row that matches (tables without other unique keys).", "C25_unsupplied_column_reset, C25_city_erased"),
'C27': ("query_all with a scalar or tuple signature returns the rows in order with unchanged values, raising iff there are rows and the column count does not match. Data-class signatures, if columns have different names, assign each column to the field of the same name on PostgreSQL, MySQL and SQL Server, with the exact condition for an error; on Oracle, which assigns by position, exactly if the columns are the first fields in the same order.", "C27_oracle_swaps, C27_same_name_lost"),
'C28': ("Records written with TextWriter are read back by TextReader as the same records in the same order exactly if none of them is written as an empty line; otherwise reading always stops there without an error. In a tab-separated file with valid column names this happens exactly for a record of one empty text. The header is read back exactly if there are names without tabulator and newline.", "C28_truncated, C28_empty_text_truncates"),
'C30': ("On PostgreSQL, MySQL, SQL Server and Oracle, a data type written to DDL and re-read by discovery from what the server reports is the same data type, so that a second synchronization sees no change, exactly for the data types in Spec.Kept; the outcome for each Python type and annotation is determined.", "C30_integer_range_fails, C30_user_type_fails, C30_mysql_enum"),
'C31': ("Every value of a Python fixed-width integer type fits the SQL column type it is mapped to, exactly if the type is signed or uint8, or the engine is Snowflake, or it is Oracle and the type is not uint64; with the types of the PostgreSQL extension for all types. Annotated integers fit if signed and of 2, 4 or 8 bytes, whatever else is annotated; without, they do not.", "C31_unsigned_too_small, C31_annotated_unsigned_too_small, C31_annotated_byte"),
'C32': ("In the catalog produced from any set of data-classes, no two tables of which get the same name, every foreign key refers to an existing column of a table in the same catalog, from an existing column of its own table with the same type, the primary key column exists, and the tables are exactly those called for.", "C32_name_clash_fails"),
'C33': ("A field list[E]/set[E] becomes a join table with a key and one foreign key to each side (if these get different column names). For lists it can represent every assignment of lists of E to owners, up to order; for sets exactly those assignments in which no item belongs to two owners.", "C33_shared_item_fails, C33_column_clash_fails"),
'C35': ("Every foreign key, enumeration and range restriction declared on a data-class field yields its own constraint in the table on engines that have such constraints, and generated constraint names within a table never clash. Uniqueness declared on a field yields a constraint exactly on engines with foreign keys.", "C35_unique_lost, C35_unique_list_fails, C35_names_across_tables_fails"),
'C36': ("Feeding the rows (constraint, column[, target]) of the information schema to the factories yields one constraint per name with columns in row order; a name with two target tables is refused; a list of constraints written as rows comes back. (The rows that Oracle's query yields for composite foreign keys, and the positional pairing of the ANSI query, are not such rows.)", "C36_oracle_multiplies, C36_position_mispairs"),
'C39': ("After sorting, each namespace comes after the namespaces it references by foreign keys, column types or members of composite types, no namespace is lost, and namespaces that reference each other are refused. (Element types of arrays do not count as references.)", "C39_array_not_noticed"),
'C40': ("On PostgreSQL and MySQL, for every behaviour of the network: with require/verify-ca/verify-full no plaintext connection is ever attempted; verify-* always verify; disable never uses TLS; prefer/allow try their preferred mode first and fall back exactly after a connection error, at most once. Oracle always connects in plain text and SQL Server never verifies, whatever the mode.", "C40_oracle_always_plain, C40_mssql_never_verifies"),
'C41': ("str(ConnectionParameters) does not depend on the password, and parsing it back yields the same host, port, user, database and SSL mode, for a domain name as host, exactly if the port is not 0, the user is not empty, and the name of the database is not empty and needs no quoting. A connection string made of any user and password is taken apart into these.", "C41_round_trip"),
'C42': ("random_objects, whatever the random choices, yields the requested number of objects, whose integer primary keys are a permutation of 0..count-1, hence distinct, and whose other fields have values of their types within the declared length/range bounds, unless a range refines a fixed-width type; it succeeds for types that have producible values.", "C42_key_range_fails, C42_refined_range_fails, C42_min_length_fails, C42_unique_fails"),
'C44': ("A module-to-schema mapping is accepted exactly if it names no schema twice; it then sends distinct modules to distinct names, and exactly the unmapped modules are refused. Distinct names are distinct schemas, except that None and the empty name denote the same.", "C44_default_and_empty"),
'C45': ("The text emitted for each DDL statement tokenizes, under SQL lexical rules, to exactly the token sequence of that statement, in one way only, and a script is read as exactly its statements: names, labels and comments cannot merge with neighbouring syntax. This holds for arbitrary names, comments and labels, except labels with a backslash on MySQL, Delta and Snowflake, comments with NUL on Delta and Snowflake, and names of schemas with a quote on SQL Server; SQL fragments supplied by the user must be lexable themselves.", "C45_schema_name_fails, C45_label_fails"),
'C48': ("The column created for a field of type str (with or without a maximum length), datetime or time (with or without a precision), Decimal (with or without a precision) or float holds every value of that type, i.e. a string of the declared length is not cut and the microseconds of a point in time, the digits of a decimal number and the significand of a floating-point number are kept, exactly for the engines and parameters given by an explicit criterion for each of these types (strings without a declared length: up to 16 MB).", "C48_text_fails, C48_float_precision_fails"),
'C50': ("If tables are to be initialized (initialize_tables), then after the objects of a program have been created, the lookup table of an enumeration that becomes a table lists the members of the enumeration, each once, in the order of their definition, with distinct generated keys; likewise for a lookup table that is new when an existing database is synchronized. A lookup table that exists already keeps the labels it has.", "C50_new_members_are_ignored"),
}
if __name__ == '__main__':
    out=[]
    for l in open('properties.jsonl'):
        p=json.loads(l)
        if p['id'] in NEW:
            s,w=NEW[p['id']]
            if 'unrestricted_claim' not in p: p['unrestricted_claim']=p['statement']
            p['statement']=s; p['refuted_by']=w
        out.append(json.dumps(p,ensure_ascii=False))
    open('properties.jsonl','w').write('\n'.join(out)+'\n')
