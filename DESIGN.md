# Formal model of pysqlsync in Lean 4 — design

Source: /repo (hunyadi/pysqlsync, pinned). Model: /verif/lean/Verif. Lean 4.33.0, core library only (no Mathlib import is needed).

## Method

* `Verif/Model/*.lean` — shallow, executable model of the Python functions, branch by branch. Every definition cites file and lines. Exceptions are values (`Except Err _`).
* `Verif/Spec/*.lean` — small independent specifications: SQL lexical rules, LIKE matching, tokens of statements, a relational DDL machine (what a database does with a statement), the effect of statements on rows, row semantics of INSERT/MERGE/DELETE, capacities of column types, what server catalogs report. Nothing in `Spec` mentions how pysqlsync computes anything.
* `Verif/Lemmas/*.lean` — helper lemmas. `Verif/Examples/*.lean` — concrete catalogs and programs on which hypotheses are checked by the kernel.
* `Verif/Props/*.lean` — the property theorems `Cnn_...` and, next to each, `example`s that show that the hypotheses are met by a concrete non-trivial case. Where the code violates the property, a theorem `Cnn_..._fails` (or `_lost`, `_ignored`, `_misplaced`, ...) exhibits a witness, or proves the failure for all inputs of a kind.

Properties whose first version turned out to be false of the code were restated exactly (an equivalence, or a statement with its exceptions); the first version is kept in properties.jsonl as `unrestricted_claim`, with the theorems that refute it in `refuted_by`. Where only part is proved, the theorem has the suffix `_partial` and the manifest says what is missing.

Python `str` is modelled as `Text := List Char` (Python strings are sequences of code points; lone surrogates are not modelled). `int` is `Int`/`Nat`. A Python `dict` (insertion-ordered) is an association list with unique keys; the iteration order of a `set` is a parameter or irrelevant.

## Trusted base

* Lean's kernel. Axioms: each theorem depends on a subset of `propext`, `Classical.choice`, `Quot.sound` (those of Lean's core library); there are no others, no compiled evaluation (`decide +kernel` is kernel reduction).
* That the model is a faithful transcription of the Python code (by reading; no code is run). Mutation tests (seeded/LOG.jsonl) show that the theorems depend on the details.
* The specifications as descriptions of database servers and of SQL: Spec/Lex, Spec/Token (ISO 9075-2 and the manuals on string literals), Spec/Ddl (strict relational machine), Spec/Rows, Spec/Dml (rows), Spec/Capacity, Spec/Integers, Spec/ServerTypes (from the manuals), Spec/Remarks (comments). Escapes that Spec/Lex does not specify count as not read back. Spec/PyCode describes how Python reads the lines of generated code (language reference; the modules `enum` and `dataclasses`).
* External code, as parameters with contracts: `strong_typing.topological.topological_sort` (`Spec.Sorts`; satisfiable: Model/Topo), `type_topological_sort` (`OrdersClasses`; satisfiable: Examples/Deploy), the `tsv` package (codec; modelled for texts and NULL), `random` (a stream of choices), `urllib.parse` and `ssl` (modelled as far as they are used), database drivers (they execute statements, count parameters; network behaviour is an arbitrary function).

## What is modelled

| source (pysqlsync/) | model | not modelled |
|---|---|---|
| model/id_types.py | Ident | GlobalId is printed raw by design |
| model/data_types.py (+ dialects' data_types.py) | SqlType, Literal, Compatible | constants other than strings, numbers, tuples of these (given as text) |
| model/properties.py, formation/inspection.py, model/key_types.py | Fields (types as they are written), PyTypes (the result is its input) | evaluation of forward references |
| model/entity_types.py, util/dataclasses.py flatten_dataclass | Fields | the metadata of fields |
| formation/object_dict.py | ObjectDict | |
| formation/object_types.py (+ dialects' object_types.py) | Objects (statements as values), Merge, Render (their text) | |
| formation/mutation.py (+ dialects' mutation.py) | Mutation | log messages |
| formation/py_to_sql.py | PyTypes, Converter, AutoDefault (`auto_default`; off elsewhere), Engines, Registry (NamespaceMapping) | documentation strings; computation of the set of referenced types |
| formation/constraints.py | Factories | |
| formation/data_types.py | TypeDiscovery | non-ASCII digits and white space |
| formation/discovery.py, dialect/*/discovery.py | Discovery (PostgreSQL), Explorers (MySQL, SQL Server, Oracle; the pattern by which tables are selected), Factories (joins of constraints), TypeDiscovery (substitutions) | text of the other queries: replaced by the rows they return (Spec/Explore, Spec/Explorers); Delta, Snowflake, Trino |
| formation/sql_to_py.py | Reverse | evaluation of forward references |
| python_types.py | PyCode | the text of types (external `TypeFormatter`), documentation strings of data classes with several lines (external parser, text wrapping), non-ASCII identifiers |
| base.py get_field_extractor, get_value_transformer (+ dialects' generator.py), JSON encoder | Bind | numbers with a fraction, points in time (passed as they are) |
| base.py generator: statements | Dml, Session (state), Lookup, Records | prepared statement text of parameters, logging |
| base.py context: insert/upsert/delete | Records, Lookup, Dml | asynchrony: calls of one connection are sequential (for dispatched calls of one task: C64) |
| dialect/*/generator.py, base.py get_table_*_stmt | Engines, Dml, DmlText, Literal | |
| dialect/*/connection.py; base.py create_schema, drop_schema | Split, ResultSet, Connect, Copy (Redshift), DropSchema, Transact | drivers |
| util/dispatch.py; base.py `BaseConnection.__aenter__`, `__aexit__` | Dispatch | asyncio and concurrent.futures (their behaviour is stated at the head of Model/Dispatch); interrupt signals; threads that cannot be started |
| base.py 526-536, 607-684, 812-829 with several clients | Clients | a statement with one record is atomic and visible to all once executed |
| dialect/mssql/data_types.py sql_to_odbc_type, dialect/oracle/data_types.py sql_to_oracle_type, _execute_typed | Params | what drivers do with the declarations (Spec/Params, from manuals) |
| connection.py, factory.py | Connect, Registry | reading of certificates |
| resultset.py | ResultSet | |
| data/exchange.py; model/properties.py tsv_type | Exchange, TsvTypes (types of columns) | codecs of other formats |
| dialect/mssql/connection.py connection string | Odbc | the driver manager (Spec/Odbc is trusted to describe it) |
| data/generator.py | Random | |

Dialects: ANSI/base, PostgreSQL, MySQL, Oracle, SQL Server, Redshift, Snowflake, Delta, Trino.

## Properties

| id | modelled | proof |
|----|----------|-------|
| C01 | catalogs and the mutator, emitting a statement AST; Spec/Ddl: relational DDL machine | phase-by-phase simulation: the machine run on the script ends in the denotation of the target (safe catalogs); conversely, from an accepted run that ends in the target every clause of safety is recovered (Lemmas/Frame: what statements leave alone, Lemmas/NsExact for one namespace, Lemmas/CatExact for the stages of the script); eleven witnesses in Props/C01Fails |
| C02 | same | structural: differences empty, intersections diagonal |
| C03, C04 | same; Spec/Foot | characterisation of every statement in the script |
| C05 | mutate_column_stmt of all dialects; Spec: effect of column actions | case analysis on the attributes, all values; equivalence in C05Exact |
| C06 | mutate_table_stmt; Spec: ALTER TABLE | induction over column/constraint lists |
| C07 | mutate_enum_stmt | list induction |
| C08 | mutate_struct_stmt | as C06 |
| C09 | mutate_namespace_stmt | shape of the script + run invariant for every prefix |
| C10 | migrate statements; Spec/Rows: rows, UPDATE-JOIN | pointwise over rows, for tables and (C10Catalog) whole scripts; C10Exact: exactly when, per dialect |
| C11 | mutate_* error results | characterisation of refusals and of silence |
| C12 | script + machine preconditions | part of C01's run and its converse |
| C13 | create/drop via mutate_catalog | instance of C01, and of its converse, with empty source/target; an accepted creation script is shown to create exactly the catalog |
| C14 | generator/explorer state machine with failing database | invariant over histories; exact criterion for each call (Misled), with recovery |
| C15 | id_types.py; Spec/Lex: delimited-identifier lexer | induction over characters |
| C16 | quote/constant; Spec/Lex: standard, MySQL, Delta, Snowflake literals | induction; equivalences |
| C17 | escape_like + pattern; Spec: LIKE matcher | induction |
| C18 | sql_quoted_string ×3; Spec: engine literal lexers | induction |
| C19 | ids | prefix combinatorics |
| C20 | re.split(";$", MULTILINE) | induction; counting of cuts |
| C21 | batches | induction over records |
| C22 | _generate_records & statements | list lemmas; sublists of labels |
| C23 | enum transformers, lookup table; Spec: insert-or-ignore with fresh keys | invariant over batches |
| C24–C26 | upsert/merge/delete statements as AST; Spec/Dml: row semantics | refinement to finite maps |
| C27 | resultset.py | induction |
| C28 | exchange.py with TSV codec as parameter | induction over lines |
| C29 | compatible_type; Spec/Values: value sets | case analysis over parameters |
| C30 | SqlDiscovery (name table, regular expressions), `__str__`; Spec/ServerTypes | case analysis + digit round trip |
| C31 | simple_type_to_sql_data_type; Spec/Integers | arithmetic |
| C32–C35 | converter over an inductive Python type universe; Spec/Convert, UserTypes, Joins | induction over programs |
| C36 | constraint factories | induction over rows |
| C37 | merge | refinement to maps |
| C38 | ObjectDict | refinement to ordered maps, all op sequences |
| C39 | Catalog.sort | from the contract of the sort |
| C40 | create_context/open with an oracle for attempts | case analysis over all oracles |
| C41 | `__str__`, get_parameters (urlparse subset) | induction on percent-encoding |
| C42 | generator with random choices as a stream | induction on types, permutation argument |
| C43 | registry | refinement over histories |
| C44 | NamespaceMapping | list/set lemmas |
| C45 | rendering of the AST to text; Spec/Token: lexer | unique reading by induction over tokens |
| C46 | comments of tables, columns, types; Spec/Remarks | invariant over the script |
| C47 | composition of converter, order and emission; Spec/Deploy (what is deployed, joins, lookups, types) | C32–C35 + C01; a program that fails for each condition in C47Fails |
| C48 | column types for str, datetime, time, Decimal, float; Spec/Capacity | parsing of the emitted type names, arithmetic |
| C49 | effect of whole scripts on rows; Spec/Rows, Keep | invariant over statements (Lemmas/Data) |
| C50 | rows inserted into lookup tables; Spec/Members | invariant (Lemmas/Members) |
| C51 | Discovery (PostgreSQLExplorer over catalog rows), Session; Spec/Explore | read-back of rows in any order; C02 for silence; effect of re-added conditions |
| C52 | Explorers (MySQL, SQL Server, Oracle over catalog rows), Merge, Session; Spec/Explorers | inversion of what is read, exactness of silence (Lemmas/Settled, Flat, Qualified) |
| C53 | Reverse (sql_to_py), Engines, PyTypes; Spec/Reverse | inversion of the conversion, case analysis over types and engines |
| C54 | Bind (extractors, transformers, JSON encoder), Engines, PyTypes; Spec/Bind (what columns store of a parameter, a JSON reader) | bytes of numbers; the JSON reader inverts the encoder (mutual induction, Lemmas/Json); case analysis over engines and modes |
| C55 | Copy (the stream); Spec/Copy (its reader) | counting of separators, splitting inverts joining |
| C56 | Fields: type expressions of `typing` (unions are flat and without repetitions, nested annotations merge), `get_field_properties` and the recognition of keys; Spec/Fields: what is written around a class | induction over the wrappers: normal form of a written type (annotations, union, inner annotations, rest) |
| C57 | Fields: `make_entity`, the order that `make_dataclass` asks for | list induction |
| C58 | Fields: `flatten_dataclass` | membership; unique splitting at the first two underscores |
| C59 | AutoDefault: `member_to_column` with the option; Spec/AutoDefault: zero values | case analysis over types |
| C60 | DropSchema: conversations of `create_schema` and `drop_schema` with the server (queries with their literals, statements); Spec/DropSchema: answers and effects, including what a cascade removes | induction over rows; cascades compose; reuse of C16, C17 for the literals, C02 for the stale model |
| C61 | Params: `sql_to_odbc_type`, `sql_to_oracle_type`, the argument of `setinputsizes` next to statement and records; Spec/Params: what a declared parameter admits | case analysis on types with the capacities of C31 and C48; lengths for the positions |
| C62 | DmlText: the text of the statements of Dml, with placeholders; Spec/DmlText: tokens, Python's `%` | composition of pieces as in C45; lengths and numbers of `%` before and after |
| C63 | Transact: the driver calls of scripts and batches, autocommit; Spec/Transact: commits, failures, loss of the connection as a relation | induction over derivations; the part left behind by an operation (`Left`) composes |
| C64 | Dispatch: event loop, tasks, thread pools and cancellation as a labelled transition system; Spec/Dispatch: the direct runs of a program | invariant over executions with a backward simulation (`local_step`); conversely a schedule is built for each direct run; termination by accessibility of the product of the tasks' local transition systems |
| C65 | Clients: the loop of C23 in steps (one per statement), with any number of clients and other programs, interleaved; Spec of C23 | invariant over reached states (keys got so far stay valid as tables only grow), second invariant for progress, induction over labels, transformers and batches for termination |
| C66 | PyCode: the lines of `enum_class_to_stream`, `dataclass_to_stream`, `module_to_stream`, `repr` of strings (CPython); Spec: a reader of Python lines, string and integer literals, and what class bodies define | strings by induction over characters, each kind of line read back, invariant of the interpreter state over lines, induction over members, fields and classes; failing lines for the limits |
| C67 | TsvTypes: `tsv_type`, `fields_to_types`, header of `TextWriter`; Spec/TsvTypes: how values of a type are stored | case analysis over types, sets of types of a union, induction over fields |
| C68 | Odbc: connection string for SQL Server; Spec/Odbc: how ODBC connection strings are read | induction over characters and attributes |

## Findings (each proved as a theorem, or recorded in a comment next to one)

Schema changes: a changed primary key is neither applied nor refused (C06, C11); on PostgreSQL `DROP COLUMN` removes constraints that are then dropped again (C01); a constraint on a converted column is lost (C01); giving up identity together with NOT NULL is refused (C05); a foreign key to a new table of a schema that is changed later, a table dropped while another schema refers to it, removed schemas dropped in the wrong order, a new schema that uses a new type, a lookup table that becomes a type, composite types in the wrong order (C01); array element types are no references (C12, C39); constraints of schemas that may not be dropped are dropped (C04); labels are forgotten by conversions on dialects other than PostgreSQL and MySQL, and a NOT NULL key column is refused on populated tables (C10); comments of converted columns and of members of composite types are lost (C46); new members of an enumeration with a lookup table are ignored (C50); a failed create_objects leaves a wrong model and is not retried (C14).

Text: backslashes in literals on MySQL, Delta, Snowflake (C16, C45); quotes in schema names on SQL Server (C45); NUL before octal digits (C18); semicolons at line ends on Oracle and Redshift (C20); colliding prefixes (C19); database names quoted but not unquoted in connection strings (C41).

Data: values sent to wrong columns if columns are known in another order than the fields (C22); MERGE with identity keys, other unique keys (C24); unsupplied columns reset on PostgreSQL and MySQL (C25); Oracle assigns result columns by position, columns of equal names are lost (C27); the reader of exchange files stops at an empty line (C28); composite foreign keys on Oracle, positional pairing in the ANSI query (C36).

Types: unsigned integers (C29, C31); unions with bare CHAR, LONGTEXT (C29); types that do not survive discovery (C30); text, time and decimal capacities (C48); types that are not created (C34, with the exact criterion); a join table replaces a class table (C32); sets with shared items (C33); uniqueness dropped without foreign keys, constraint names clash across tables (C35); `E | str` on PostgreSQL (C47).

Connections: Oracle and SQL Server ignore the SSL mode (C40). asyncpg treats `ssl=None` as "prefer", so that `disable` may use TLS there; the driver is outside the model.

Discovery on PostgreSQL (C51): check conditions are never discovered, so a schema with an integer range is refused by its second synchronization (the condition is added again under the same name), and column types with ranges are set again each time; defaults TRUE, negative numbers and texts are reported differently and are set again each time; array members of composite types are read as their elements; an empty schema and an enumeration without labels are not seen; views count as tables; discriminated keys are not read (harmless, as they are not database objects).

Discovery on MySQL, SQL Server, Oracle (C52): check conditions (such as those that the library makes for integer ranges) are not read on any of them, so they are added again each time; SQL Server reports defaults in parentheses, so every default is set again each time; on MySQL a description whose first line is empty is written again each time, and a foreign key to a table of a namespace whose name contains `__` or ends in `_` is dropped and made again; two namespaces such as `a` and `a__b` cannot be synchronized together on MySQL once there is a table in the latter, and synchronizing `a` alone drops the tables of `a__b` (MySQL and Oracle); on Oracle foreign keys of several columns are never settled, tables of a namespace with `__` in its name are never recognized, and tables with `$` in their name are never found; on SQL Server foreign keys to a table of the current schema, or to the columns of a key in another order, are never settled. Trino: `TrinoExplorer` does not define the abstract methods `get_namespace` and `get_namespace_current` of `Explorer` (base.py:1357-1365), so it cannot be instantiated and every discovery on Trino raises TypeError (read in the code, not modelled).

Generated classes (C53): `column.name == table.primary_key` compares a name with a tuple, so the primary key is lost and the class cannot become a table again; a default (SQL) is quoted again; a nullable reference is required; a boolean of MySQL comes back as bigint, a decimal without its precision; descriptions of columns are lost.

Binding of values (C54): a UUID or an address in a field that is a key, unique, annotated or Optional is passed as an object that the drivers of MySQL, Oracle, SQL Server and Redshift do not take (a time of day on Oracle likewise); an IPv4 address in a field for both kinds is filled up with zeros on MySQL and SQL Server; a member of an Optional enumeration is passed as an object; with lookup tables (Oracle, SQL Server, Redshift by default) `insert_data` passes the label where the column has integer keys; integer-valued enumerations do not match the labels of ENUM types; JSON fields of objects are not encoded, sets cannot be encoded; `delete_data` does not convert keys. Redshift (C55): None arrives as the text `None`, bars and newlines break rows, bytes arrive as a Python literal.

Types as written (C56-C58): `Optional[Identity[T]]` leaves `DEFAULT` in the type; `Identity[PrimaryKey[T]]` (and `Optional[PrimaryKey[T]]`) has the property of a key but the class is not recognized as an entity, and with another key the name and the type of the key come from different fields; `JsonType` is a union with `None`, so a field of it is optional; `make_entity` loses default factories and, as it moves the key to the front, refuses a key with a default among fields without; `flatten_dataclass` loses `Optional` around a nested class and may produce a name twice.

Automatic defaults (C59): MySQL ignores the option; a mandatory date, time, UUID, interval, address or literal is refused with it; where enumerations become tables, the default is a label although the column is an integer.

Dropping schemas (C60): foreign keys and columns elsewhere that depend on the schema are dropped silently on PostgreSQL (foreign keys on Oracle), but are a reason to refuse on SQL Server and MySQL; SQL Server lists views among the tables and then refuses to drop them as such; Oracle lists the tables of all users (`dba_tables`) and is then refused; a namespace `a` includes the tables of a namespace `a__b` on MySQL and Oracle; `create_schema` on MySQL creates a database which `drop_schema` does not drop; the connection's model is not told, so that `create_objects` afterwards does nothing.

Declared parameters (C61): on SQL Server, timestamps and times are declared with no decimal digits, so that fractions of a second are refused ("fractional second precision exceeds the scale specified in the parameter binding"), and a decimal number without precision with 15 digits although its column has 18; on Oracle a 32-bit unsigned integer is declared as a signed one; `insert_rows` declares a type for an identity column that has no parameter, which shifts the declarations of the others.

Data statements (C62): on MySQL no row can be inserted into a table if there is a `%` in the name of the table or a column, as the text is used as a Python format; MERGE is written without a condition if no column of the primary key and no unique column is among the parameters, e.g. by `get_table_merge_stmt` if the primary key is an identity column and nothing else is unique.

Failures (C63): on SQL Server and Oracle, the records of a batch before the one that is refused stay in the open transaction (there is no rollback); if the program catches the error and goes on, the next call that succeeds commits them. On MySQL, Oracle and Redshift a script that fails has been executed in part; on MySQL and Redshift so has a batch.

Threads (C64): a connection must not be shared between tasks on SQL Server, Oracle and Redshift, as each call has a thread of its own and nothing orders the calls of different tasks. Cancelling a call (e.g. `asyncio.wait_for`) while its function runs does not return before the function does, and meanwhile the event loop is blocked for all tasks: `with ThreadPoolExecutor` waits synchronously. If `open` is cancelled while the driver connects, the connection is established but `__aexit__` is not called, hence never closed.

Generated code (C66): `dataclass_to_stream` writes `field(...)` for a field with a default factory or metadata, but neither it nor the header of `module_to_stream` imports `field` (only `import dataclasses`): the code of such a module fails with a NameError. A default value that is a member of an enumeration is written as `<E.a: 'a'>`, which is no Python; a data class with nothing in its body gets no `pass`. `create` calls `module_to_code` only if DEBUG logging is enabled, and it raises NotImplementedError for a module with any other class (say, an exception or a helper class): turning on debug logging makes a program fail that works without.

Tab-separated files (C67): a mapping for some of the fields of a class can be given to `TextWriter`, but `fields_to_types` raises KeyError for the same mapping, so that a file written this way cannot be read back with it. Durations (`timedelta`) and JSON fields have a database column but `tsv_type` raises TypeError for them.

Connection string for SQL Server (C68): values are not quoted, so a password with a semicolon is cut and can set other attributes (`DATABASE=other`); the mode of encryption is ignored and the certificate is always trusted; a port without a host gives the server `None,1433`.

## Caveats

* Redshift's literals are treated as in the ANSI rules; Redshift shares PostgreSQL's object classes.
* The model of MySQL assumes an sql_mode without NO_BACKSLASH_ESCAPES and ANSI_QUOTES.
* Spec/Ddl: data type conversions always succeed, constraint names are local to a table, a foreign key refers to a primary key.
