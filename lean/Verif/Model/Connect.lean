/-
Model of how connections are opened and described: pysqlsync/connection.py, pysqlsync/factory.py and `open` in the dialects.
Parts of Python's `urllib.parse` and `ssl` that the code calls are modelled too, as far as the code uses them.
-/
import Verif.Model.Objects

set_option autoImplicit false

namespace PySqlSync

/-! ### Secure sockets -/

/-- `ConnectionSSLMode` (connection.py:21-41). -/
inductive SslMode where
  | disable | prefer | allow | require | verifyCa | verifyFull
deriving DecidableEq, Repr

/-- The two attributes of an `ssl.SSLContext` that the code sets: is a certificate of a trusted authority required, must it be for
    the host name that was asked for. -/
structure SslContext where
  certRequired : Bool
  checkHostname : Bool
deriving DecidableEq, Repr

/-- `create_context` (connection.py:44-78).  The default context and the one of `truststore` both load trusted authorities, which
    is not modelled. -/
def createContext : Option SslMode → Option SslContext
  | none | some .disable => none
  | some .prefer | some .allow | some .require => some ⟨false, false⟩
  | some .verifyCa => some ⟨true, false⟩
  | some .verifyFull => some ⟨true, true⟩

/-- An attempt to connect is made without a context (in plain text) or with one. -/
abbrev Attempt := Option SslContext

/-- What an attempt ends with: a connection, the exception that the code catches (`ConnectionError` of asyncpg's connect,
    `OperationalError` of PyMySQL), or another exception. -/
inductive ConnOutcome where
  | connected
  | connectionError
  | otherError
deriving DecidableEq, Repr

/-- What happens to an attempt may depend on all attempts before: any server and any network. -/
abbrev Network := List Attempt → Attempt → ConnOutcome

/-- `_open`: one attempt. -/
def attempt (net : Network) (done : List Attempt) (a : Attempt) : List Attempt × ConnOutcome := (done ++ [a], net done a)

/-- `try: first; except ConnectionError: second`. -/
def attemptElse (net : Network) (first second : Attempt) : List Attempt × ConnOutcome :=
  match attempt net [] first with
  | (done, .connectionError) => attempt net done second
  | r => r

/-- `PostgreSQLConnection.open` (postgresql/connection.py:26-50) and `MySQLConnection.open` (mysql/connection.py:31-54), which
    differ only in the exception that is caught.  The result has the attempts made, in order, and the outcome of the last. -/
def openConnection (net : Network) (mode : Option SslMode) : List Attempt × ConnOutcome :=
  match mode with
  | none | some .disable => attempt net [] none
  | some .prefer => attemptElse net (createContext mode) none
  | some .allow => attemptElse net none (createContext mode)
  | some .require | some .verifyCa | some .verifyFull => attempt net [] (createContext mode)

/-- `OracleConnection.open` (oracle/connection.py:35-47): a data source `host:port/database` is a plain TCP connection; the mode
    is not looked at. -/
def openOracle (net : Network) (_mode : Option SslMode) : List Attempt × ConnOutcome := attempt net [] none

/-- `MSSQLConnection.open` (mssql/connection.py:30-53): the driver encrypts, the certificate is trusted whatever it is
    (`TrustServerCertificate=yes`); the mode is not looked at. -/
def openMSSQL (net : Network) (_mode : Option SslMode) : List Attempt × ConnOutcome := attempt net [] (some ⟨false, false⟩)

/-! ### Percent-encoding (`urllib.parse.quote` and `unquote`) -/

/-- The bytes of a code point in UTF-8. -/
def utf8Bytes (n : Nat) : List Nat :=
  if n < 0x80 then [n]
  else if n < 0x800 then [0xC0 + n / 0x40, 0x80 + n % 0x40]
  else if n < 0x10000 then [0xE0 + n / 0x1000, 0x80 + n / 0x40 % 0x40, 0x80 + n % 0x40]
  else [0xF0 + n / 0x40000, 0x80 + n / 0x1000 % 0x40, 0x80 + n / 0x40 % 0x40, 0x80 + n % 0x40]

/-- `str.encode("utf-8")`. -/
def encodeUtf8 (s : Text) : List Nat := s.flatMap (fun c => utf8Bytes c.toNat)

/-- A continuation byte. -/
def isCont (b : Nat) : Bool := 0x80 ≤ b && b < 0xC0

/-- The replacement character. -/
def replacement : Char := '\uFFFD'

/-- The character with a code point, if there is one and it is not over-long. -/
def charOf (lo n : Nat) : Char := if lo ≤ n ∧ Nat.isValidChar n then Char.ofNat n else replacement

/-- `bytes.decode("utf-8", "replace")`.  Simplified: a byte that begins no valid sequence is replaced on its own, whereas Python
    replaces the longest prefix of a sequence at once. -/
def decodeUtf8 : List Nat → Text
  | [] => []
  | [a] => if a < 0x80 then [Char.ofNat a] else [replacement]
  | [a, b] =>
    if a < 0x80 then Char.ofNat a :: decodeUtf8 [b]
    else if 0xC0 ≤ a ∧ a < 0xE0 ∧ isCont b then [charOf 0x80 ((a - 0xC0) * 0x40 + (b - 0x80))]
    else replacement :: decodeUtf8 [b]
  | [a, b, c] =>
    if a < 0x80 then Char.ofNat a :: decodeUtf8 [b, c]
    else if 0xC0 ≤ a ∧ a < 0xE0 ∧ isCont b then charOf 0x80 ((a - 0xC0) * 0x40 + (b - 0x80)) :: decodeUtf8 [c]
    else if 0xE0 ≤ a ∧ a < 0xF0 ∧ isCont b ∧ isCont c then
      [charOf 0x800 ((a - 0xE0) * 0x1000 + (b - 0x80) * 0x40 + (c - 0x80))]
    else replacement :: decodeUtf8 [b, c]
  | a :: b :: c :: d :: rest =>
    if a < 0x80 then Char.ofNat a :: decodeUtf8 (b :: c :: d :: rest)
    else if 0xC0 ≤ a ∧ a < 0xE0 ∧ isCont b then charOf 0x80 ((a - 0xC0) * 0x40 + (b - 0x80)) :: decodeUtf8 (c :: d :: rest)
    else if 0xE0 ≤ a ∧ a < 0xF0 ∧ isCont b ∧ isCont c then
      charOf 0x800 ((a - 0xE0) * 0x1000 + (b - 0x80) * 0x40 + (c - 0x80)) :: decodeUtf8 (d :: rest)
    else if 0xF0 ≤ a ∧ a < 0xF8 ∧ isCont b ∧ isCont c ∧ isCont d then
      charOf 0x10000 ((a - 0xF0) * 0x40000 + (b - 0x80) * 0x1000 + (c - 0x80) * 0x40 + (d - 0x80)) :: decodeUtf8 rest
    else replacement :: decodeUtf8 (b :: c :: d :: rest)

/-- A digit of a hexadecimal number, as `'%{:02X}'` writes it. -/
def hexDigit (n : Nat) : Char := if n < 10 then Char.ofNat (48 + n) else Char.ofNat (55 + n)

/-- The value of a hexadecimal digit in either case. -/
def hexValue (c : Char) : Option Nat :=
  if 48 ≤ c.toNat ∧ c.toNat ≤ 57 then some (c.toNat - 48)
  else if 65 ≤ c.toNat ∧ c.toNat ≤ 70 then some (c.toNat - 55)
  else if 97 ≤ c.toNat ∧ c.toNat ≤ 102 then some (c.toNat - 87)
  else none

/-- The characters that `quote(_, safe='')` keeps: letters, digits and `_.-~`. -/
def isUnreserved (c : Char) : Bool :=
  (48 ≤ c.toNat && c.toNat ≤ 57) || (65 ≤ c.toNat && c.toNat ≤ 90) || (97 ≤ c.toNat && c.toNat ≤ 122)
    || c = '_' || c = '.' || c = '-' || c = '~'

/-- A byte as `%XX`. -/
def pct (b : Nat) : Text := ['%', hexDigit (b / 16), hexDigit (b % 16)]

/-- `quote(s, safe='')`. -/
def quoteUrl (s : Text) : Text := s.flatMap (fun c => if isUnreserved c then [c] else (utf8Bytes c.toNat).flatMap pct)

/-- `unquote(s)`: runs of ASCII characters are unquoted to bytes and decoded, other characters are kept; `acc` has the bytes of the
    current run. -/
def unquoteGo : List Nat → Text → Text
  | acc, [] => decodeUtf8 acc
  | acc, '%' :: h :: l :: rest =>
    match hexValue h, hexValue l with
    | some a, some b => unquoteGo (acc ++ [16 * a + b]) rest
    | _, _ => unquoteGo (acc ++ [37]) (h :: l :: rest)
  | acc, c :: rest =>
    if c.toNat < 128 then unquoteGo (acc ++ [c.toNat]) rest else decodeUtf8 acc ++ c :: unquoteGo [] rest

/-- `unquote(s)`. -/
def unquoteUrl (s : Text) : Text := unquoteGo [] s

/-! ### Connection strings -/

/-- `ConnectionParameters` (connection.py:81-103). -/
structure ConnParams where
  host : Option Text := none
  port : Option Nat := none
  username : Option Text := none
  password : Option Text := none
  database : Option Text := none
  ssl : Option SslMode := none
deriving DecidableEq, Repr

/-- The value of a `ConnectionSSLMode`. -/
def SslMode.value : SslMode → Text
  | .disable => t "disable"
  | .prefer => t "prefer"
  | .allow => t "allow"
  | .require => t "require"
  | .verifyCa => t "verify-ca"
  | .verifyFull => t "verify-full"

/-- The members of `ConnectionSSLMode`, in order. -/
def SslMode.members : List SslMode := [.disable, .prefer, .allow, .require, .verifyCa, .verifyFull]

/-- `ConnectionParameters.__str__` (connection.py:105-111). -/
def ConnParams.str (p : ConnParams) : Text :=
  let host := match p.host with | some h => if h.isEmpty then t "localhost" else h | none => t "localhost"
  let port := match p.port with | some n => if n = 0 then [] else t ":" ++ natStr n | none => []
  let username := match p.username with | some u => if u.isEmpty then [] else quoteUrl u ++ t "@" | none => []
  let database := match p.database with | some d => if d.isEmpty then [] else t "/" ++ quoteUrl d | none => []
  let ssl := match p.ssl with | some m => t "?ssl=" ++ m.value | none => []
  username ++ host ++ port ++ database ++ ssl

/-- Python `s.partition(c)` for a one-character separator: the part before the first occurrence, is there one, the part after. -/
def partition (c : Char) : Text → Text × Bool × Text
  | [] => ([], false, [])
  | x :: xs => if x = c then ([], true, xs) else let r := partition c xs; (x :: r.1, r.2)

/-- Python `s.rpartition(c)`: the part before the last occurrence, is there one, the part after; the whole text is the latter if
    there is none. -/
def rpartition (c : Char) (s : Text) : Text × Bool × Text :=
  match partition c s.reverse with
  | (a, true, b) => (b.reverse, true, a.reverse)
  | (_, false, _) => ([], false, s)

/-- A character of a scheme. -/
def isSchemeChar (c : Char) : Bool := c.isAlphanum || c = '+' || c = '-' || c = '.'

/-- `urlsplit(url, allow_fragments=False)`: scheme, network location, path, query.  Not modelled: the check that a location that is
    not ASCII has no delimiters in its normalized form; addresses in brackets (refused here); the part after `;`, which `urlparse`
    splits off for a few schemes that are no dialects. -/
def urlSplit (url : Text) : Except Err (Text × Text × Text × Text) :=
  let url := url.dropWhile (fun c => c.toNat ≤ 32)
  let url := url.filter (fun c => c ≠ '\t' ∧ c ≠ '\r' ∧ c ≠ '\n')
  let (scheme, url) :=
    match partition ':' url with
    | (s, true, rest) =>
      if (match s with | c :: _ => c.isAlpha | [] => false) && s.all isSchemeChar then (s.map Char.toLower, rest) else ([], url)
    | _ => ([], url)
  let (netloc, url) :=
    match url with
    | '/' :: '/' :: rest => (rest.takeWhile (fun c => c ≠ '/' ∧ c ≠ '?' ∧ c ≠ '#'), rest.dropWhile (fun c => c ≠ '/' ∧ c ≠ '?' ∧ c ≠ '#'))
    | _ => ([], url)
  if netloc.contains '[' || netloc.contains ']' then .error .value
  else
    let p := partition '?' url
    .ok (scheme, netloc, p.1, p.2.2)

/-- `int(s)` for a text of digits. -/
def digitsValue (s : Text) : Option Nat :=
  s.foldl (fun acc c => acc.bind (fun n => if c.isDigit then some (10 * n + (c.toNat - 48)) else none)) (some 0)

/-- `hostname` and `port` of a location. -/
def hostInfo (netloc : Text) : Except Err (Option Text × Option Nat) := do
  let (_, _, info) := rpartition '@' netloc
  let (hostname, _, port) := partition ':' info
  let port ← if port.isEmpty then pure none else
    match digitsValue port with
    | some n => if n ≤ 65535 then pure (some n) else throw Err.value
    | none => throw Err.value
  let (name, percent, zone) := partition '%' hostname
  let host := if hostname.isEmpty then none else some (name.map Char.toLower ++ (if percent then '%' :: zone else []))
  pure (host, port)

/-- `username` and `password` of a location. -/
def userInfo (netloc : Text) : Option Text × Option Text :=
  match rpartition '@' netloc with
  | (info, true, _) =>
    match partition ':' info with
    | (u, true, p) => (some u, some p)
    | (u, false, _) => (some u, none)
  | _ => (none, none)

/-- Python `s.split(c)`. -/
def splitChar (c : Char) : Text → List Text
  | [] => [[]]
  | x :: xs =>
    if x = c then [] :: splitChar c xs
    else match splitChar c xs with
      | [] => [[x]]
      | p :: ps => (x :: p) :: ps

/-- `parse_qs(query, strict_parsing=True)`, as the list of names and values that are not blank. -/
def parseQuery (query : Text) : Except Err (List (Text × Text)) := do
  let pairs ← (splitChar '&' query).mapM (fun item =>
    match partition '=' item with
    | (n, true, v) => Except.ok (unquoteUrl (replaceChar '+' [' '] n), unquoteUrl (replaceChar '+' [' '] v), v.isEmpty)
    | _ => Except.error Err.value)
  pure ((pairs.filter (fun p => !p.2.2)).map (fun p => (p.1, p.2.1)))

/-- `x if x else None` for a text that may be absent. -/
def orNone : Option Text → Option Text
  | some (c :: s) => some (c :: s)
  | _ => none

/-- The part of `get_parameters` that finds the mode (factory.py:83-98). -/
def sslOf (query : Text) : Except Err (Option SslMode) :=
  if query.isEmpty then .ok none
  else do
    let items ← parseQuery query
    match (items.filter (fun p => p.1 = t "ssl")).map Prod.snd with
    | [] => pure none
    | [v] =>
      match SslMode.members.find? (fun m => v = m.value) with
      | some m => pure (some m)
      | none => throw Err.value
    | _ => throw Err.value

/-- `get_parameters` (factory.py:63-107). -/
def getParameters (url : Text) : Except Err (Text × ConnParams) := do
  let (scheme, netloc, path, query) ← urlSplit url
  let ssl ← sslOf query
  let (host, port) ← hostInfo netloc
  let (username, password) := userInfo netloc
  pure (scheme,
    { host := host, port := port,
      username := (orNone username).map unquoteUrl,
      password := (orNone password).map unquoteUrl,
      database := if path.isEmpty then none else some (path.dropWhile (fun c => c = '/')),
      ssl := ssl })

end PySqlSync
