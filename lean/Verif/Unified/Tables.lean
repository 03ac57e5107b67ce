import Verif.Unified.Decoders

/-!
# Decoders that look up a name (C114)

The decoders of error codes, authorization states, SQLite results, DNS protocols, reasons and
record types, and Open Directory errors and membership types of dtformats/unified_logging.py.
-/

namespace Dtf.Unified
open Py Formats Text

/-- The characters of a literal, written out when the file is read: it spares the kernel the
decoding of the literal. -/
macro "chars " s:str : term => do
  let cs := s.getString.toList.map (fun c => Lean.Syntax.mkCharLit c)
  `([$(cs.toArray),*])

/-- A Python dictionary of integers and names. -/
abbrev Table := List (Int × List Char)

/-- `DARWIN_ERROR_CODES` (darwin.py 6-120). -/
def darwinErrors : Table :=
  [(-1, chars "Restart syscall"), (-2, chars "Don't modify regs, just return"),
    (-5, chars "Restart lookup under heavy vnode pressure/recycling"), (-6, chars "Red drive open"),
    (-7, chars "Keep looking"), (-8, chars "Data less"), (0, chars "Success"),
    (1, chars "Operation not permitted"), (2, chars "No such file or directory"),
    (3, chars "No such process"), (4, chars "Interrupted system call"), (5, chars "Input/Output error"),
    (6, chars "Device not configured"), (7, chars "Argument list too long"), (8, chars "Exec format error"),
    (9, chars "Bad file descriptor"), (10, chars "No child processes"),
    (11, chars "Resource deadlock avoided"), (12, chars "Cannot allocate memory"),
    (13, chars "Permission denied"), (14, chars "Bad address"), (15, chars "Block device required"),
    (16, chars "Device / Resource busy"), (17, chars "File exists"), (18, chars "Cross-device link"),
    (19, chars "Operation not supported by device"), (20, chars "Not a directory"),
    (21, chars "Is a directory"), (22, chars "Invalid argument"),
    (23, chars "Too many open files in system"), (24, chars "Too many open files"),
    (25, chars "Inappropriate ioctl for devices"), (26, chars "Text file busy"),
    (27, chars "File too large"), (28, chars "No space left on device"), (29, chars "Illegal seek"),
    (30, chars "Read-only filesystem"), (31, chars "Too many links"), (32, chars "Broken pipe"),
    (33, chars "Numerical argument out of domain"), (34, chars "Result too large"),
    (35, chars "Resource temporarily unavailable, operation would block"),
    (36, chars "Operation now in progress"), (37, chars "Operation already in progress"),
    (38, chars "Socket operation on non-socket"), (39, chars "Destination address required"),
    (40, chars "Message too long"), (41, chars "Protocol wrong type for socket"),
    (42, chars "Protocol not available"), (43, chars "Protocol not supported"),
    (44, chars "Socket type not supported"),
    (45, chars "Operation not supported, Operation not supported on socket"),
    (46, chars "Protocol family not supported"),
    (47, chars "Address family not supported by protocol family"), (48, chars "Address already in use"),
    (49, chars "Can't assign requested address"), (50, chars "Network is down"),
    (51, chars "Network is unreachable"), (52, chars "Network dropped connection on reset"),
    (53, chars "Software caused connection abort"), (54, chars "Connection reset by peer"),
    (55, chars "No buffer space available"), (56, chars "Socket is already connected"),
    (57, chars "Socket is not connected"), (58, chars "Can't send after socket shutdown"),
    (59, chars "Too many references: can't splice"), (60, chars "Operation timed out"),
    (61, chars "Connection refused"), (62, chars "Too many levels of symbolic links"),
    (63, chars "File name too long"), (64, chars "Host is down"), (65, chars "No route to host"),
    (66, chars "Directory not empty"), (67, chars "Too many processes"), (68, chars "Too many users"),
    (69, chars "Disc quota exceeded"), (70, chars "Stale NFS file handle"),
    (71, chars "Too many levels of remote in path"), (72, chars "RPC struct is bad"),
    (73, chars "RPC version wrong"), (74, chars "RPC prog. not avail"), (75, chars "Program version wrong"),
    (76, chars "Bad procedure for program"), (77, chars "No locks available"),
    (78, chars "Function not implemented"), (79, chars "Inappropriate file type or format"),
    (80, chars "Authentication error"), (81, chars "Need authenticator"), (82, chars "Device power is off"),
    (83, chars "Device error, e.g. paper out"), (84, chars "Value too large to be stored in data type"),
    (85, chars "Bad executable"), (86, chars "Bad CPU type in executable"),
    (87, chars "Shared library version mismatch"), (88, chars "Malformed Macho file"),
    (89, chars "Operation canceled"), (90, chars "Identifier removed"),
    (91, chars "No message of desired type"), (92, chars "Illegal byte sequence"),
    (93, chars "Attribute not found"), (94, chars "Bad message"), (95, chars "Reserved"),
    (96, chars "No message available on STREAM"), (97, chars "Reserved"), (98, chars "No STREAM resources"),
    (99, chars "Not a STREAM"), (100, chars "Protocol error"), (101, chars "STREAM ioctl timeout"),
    (102, chars "Operation not supported on socket"), (103, chars "No such policy registered"),
    (104, chars "State not recoverable"), (105, chars "Previous owner died"),
    (106, chars "Interface output queue is full, Must be equal largest errno")]

/-- `_VALUES` (unified_logging.py 898-904). -/
def authorizationStatus : Table :=
  [(0, chars "Not Determined"), (1, chars "Restricted"), (2, chars "Denied"),
    (3, chars "Authorized Always"), (4, chars "Authorized When In Use")]

/-- `_SQLITE_RESULTS` (unified_logging.py 954-987). -/
def sqliteResults : Table :=
  [(0, chars "SQLITE_OK"), (1, chars "SQLITE_ERROR"), (2, chars "SQLITE_INTERNAL"),
    (3, chars "SQLITE_PERM"), (4, chars "SQLITE_ABORT"), (5, chars "SQLITE_BUSY"),
    (6, chars "SQLITE_LOCKED"), (7, chars "SQLITE_NOMEM"), (8, chars "SQLITE_READONLY"),
    (9, chars "SQLITE_INTERRUPT"), (10, chars "SQLITE_IOERR"), (11, chars "SQLITE_CORRUPT"),
    (12, chars "SQLITE_NOTFOUND"), (13, chars "SQLITE_FULL"), (14, chars "SQLITE_CANTOPEN"),
    (15, chars "SQLITE_PROTOCOL"), (16, chars "SQLITE_EMPTY"), (17, chars "SQLITE_SCHEMA"),
    (18, chars "SQLITE_TOOBIG"), (19, chars "SQLITE_CONSTRAINT"), (20, chars "SQLITE_MISMATCH"),
    (21, chars "SQLITE_MISUSE"), (22, chars "SQLITE_NOLFS"), (23, chars "SQLITE_AUTH"),
    (24, chars "SQLITE_FORMAT"), (25, chars "SQLITE_RANGE"), (26, chars "SQLITE_NOTADB"),
    (27, chars "SQLITE_NOTICE"), (28, chars "SQLITE_WARNING"), (100, chars "SQLITE_ROW"),
    (101, chars "SQLITE_DONE"), (266, chars "SQLITE IO ERR READ")]

/-- `_PROTOCOLS` (unified_logging.py 1219-1219). -/
def mdnsProtocols : Table :=
  [(1, chars "UDP"), (2, chars "TCP"), (4, chars "HTTPS")]

/-- `_REASONS` (unified_logging.py 1245-1251). -/
def mdnsReasons : Table :=
  [(1, chars "no-data"), (2, chars "nxdomain"), (3, chars "query-suppressed"), (4, chars "no-dns-service"),
    (5, chars "server error")]

/-- `_RECORD_TYPES` (unified_logging.py 1277-1325). -/
def mdnsRecordTypes : Table :=
  [(1, chars "A"), (2, chars "NS"), (5, chars "CNAME"), (6, chars "SOA"), (12, chars "PTR"),
    (13, chars "HINFO"), (15, chars "MX"), (16, chars "TXT"), (17, chars "RP"), (18, chars "AFSDB"),
    (24, chars "SIG"), (25, chars "KEY"), (28, chars "AAAA"), (29, chars "LOC"), (33, chars "SRV"),
    (35, chars "NAPTR"), (36, chars "KX"), (37, chars "CERT"), (39, chars "DNAME"), (42, chars "APL"),
    (43, chars "DS"), (44, chars "SSHFP"), (45, chars "IPSECKEY"), (46, chars "RRSIG"), (47, chars "NSEC"),
    (48, chars "DNSKEY"), (49, chars "DHCID"), (50, chars "NSEC3"), (51, chars "NSEC3PARAM"),
    (52, chars "TLSA"), (53, chars "SMIMEA"), (55, chars "HIP"), (59, chars "CDS"), (60, chars "CDNSKEY"),
    (61, chars "OPENPGPKEY"), (62, chars "CSYNC"), (63, chars "ZONEMD"), (64, chars "SVCB"),
    (65, chars "HTTPS"), (108, chars "EUI48"), (109, chars "EUI64"), (249, chars "TKEY"),
    (250, chars "TSIG"), (256, chars "URI"), (257, chars "CAA"), (32768, chars "TA"), (32769, chars "DLV")]

/-- `_ERROR_CODES` (unified_logging.py 1351-1416). -/
def directoryErrors : Table :=
  [(0, chars "ODNoError"), (2, chars "Not Found"), (1000, chars "ODErrorSessionLocalOnlyDaemonInUse"),
    (1001, chars "ODErrorSessionNormalDaemonInUse"), (1002, chars "ODErrorSessionDaemonNotRunning"),
    (1003, chars "ODErrorSessionDaemonRefused"), (1100, chars "ODErrorSessionProxyCommunicationError"),
    (1101, chars "ODErrorSessionProxyVersionMismatch"), (1102, chars "ODErrorSessionProxyIPUnreachable"),
    (1103, chars "ODErrorSessionProxyUnknownHost"), (2000, chars "ODErrorNodeUnknownName"),
    (2001, chars "ODErrorNodeUnknownType"), (2002, chars "ODErrorNodeDisabled"),
    (2100, chars "ODErrorNodeConnectionFailed"), (2200, chars "ODErrorNodeUnknownHost"),
    (3000, chars "ODErrorQuerySynchronize"), (3100, chars "ODErrorQueryInvalidMatchType"),
    (3101, chars "ODErrorQueryUnsupportedMatchType"), (3102, chars "ODErrorQueryTimeout"),
    (4000, chars "ODErrorRecordReadOnlyNode"), (4001, chars "ODErrorRecordPermissionError"),
    (4100, chars "ODErrorRecordParameterError"), (4101, chars "ODErrorRecordInvalidType"),
    (4102, chars "ODErrorRecordAlreadyExists"), (4103, chars "ODErrorRecordTypeDisabled"),
    (4104, chars "ODErrorRecordNoLongerExists"), (4200, chars "ODErrorRecordAttributeUnknownType"),
    (4201, chars "ODErrorRecordAttributeNotFound"), (4202, chars "ODErrorRecordAttributeValueSchemaError"),
    (4203, chars "ODErrorRecordAttributeValueNotFound"), (5000, chars "ODErrorCredentialsInvalid"),
    (5001, chars "ODErrorCredentialsInvalidComputer"), (5100, chars "ODErrorCredentialsMethodNotSupported"),
    (5101, chars "ODErrorCredentialsNotAuthorized"), (5102, chars "ODErrorCredentialsParameterError"),
    (5103, chars "ODErrorCredentialsOperationFailed"), (5200, chars "ODErrorCredentialsServerUnreachable"),
    (5201, chars "ODErrorCredentialsServerNotFound"), (5202, chars "ODErrorCredentialsServerError"),
    (5203, chars "ODErrorCredentialsServerTimeout"), (5204, chars "ODErrorCredentialsContactPrimary"),
    (5205, chars "ODErrorCredentialsServerCommunicationError"),
    (5300, chars "ODErrorCredentialsAccountNotFound"), (5301, chars "ODErrorCredentialsAccountDisabled"),
    (5302, chars "ODErrorCredentialsAccountExpired"), (5303, chars "ODErrorCredentialsAccountInactive"),
    (5304, chars "ODErrorCredentialsAccountTemporarilyLocked"),
    (5305, chars "ODErrorCredentialsAccountLocked"), (5400, chars "ODErrorCredentialsPasswordExpired"),
    (5401, chars "ODErrorCredentialsPasswordChangeRequired"),
    (5402, chars "ODErrorCredentialsPasswordQualityFailed"),
    (5403, chars "ODErrorCredentialsPasswordTooShort"), (5404, chars "ODErrorCredentialsPasswordTooLong"),
    (5405, chars "ODErrorCredentialsPasswordNeedsLetter"),
    (5406, chars "ODErrorCredentialsPasswordNeedsDigit"),
    (5407, chars "ODErrorCredentialsPasswordChangeTooSoon"),
    (5408, chars "ODErrorCredentialsPasswordUnrecoverable"),
    (5500, chars "ODErrorCredentialsInvalidLogonHours"), (6000, chars "ODErrorPolicyUnsupported"),
    (6001, chars "ODErrorPolicyOutOfRange"), (10000, chars "ODErrorPluginOperationNotSupported"),
    (10001, chars "ODErrorPluginError"), (10002, chars "ODErrorDaemonError"),
    (10003, chars "ODErrorPluginOperationTimeout")]

/-- `_TYPES` (unified_logging.py 1497-1509). -/
def membershipKinds : Table :=
  [(0, chars "UID"), (1, chars "GID"), (3, chars "SID"), (4, chars "Username"), (5, chars "Groupname"),
    (6, chars "UUID"), (7, chars "GROUP NFS"), (8, chars "USER NFS"), (10, chars "GSS EXPORT NAME"),
    (11, chars "X509 DN"), (12, chars "KERBEROS")]

/-- The text for a number without a name. -/
def unknownValue (n : Nat) : List Char := "<decode: unknown value: ".toList ++ dec n ++ ">".toList

/-- `table.get(integer_value, f"<decode: unknown value: {integer_value:d}>")`.  The integer is never
negative. -/
def tableText (t : Table) (n : Nat) : List Char := (t.lookup (n : Int)).getD (unknownValue n)

/-- The decoders that want four bytes: `ErrorCodeFormatStringDecoder` (unified_logging.py 573-591),
`MDNSProtocolFormatStringDecoder` (1221-1239), `MDNSReasonFormatStringDecoder` (1253-1271),
`MDNSResourceRecordTypeFormatStringDecoder` (1327-1345), `OpenDirectoryErrorFormatStringDecoder`
(1418-1436) and `OpenDirectoryMembershipTypeFormatStringDecoder` (1511-1529). -/
def tableDecoder (t : Table) (v : Bytes) : List Char :=
  if v.length ≠ 4 then unsupported else tableText t (leNat v)

/-- `ExtendedErrorCodeFormatStringDecoder.FormatValue` (unified_logging.py 597-616). -/
def extendedErrorText (v : Bytes) : List Char :=
  if v.length ≠ 4 then unsupported
  else ['['] ++ dec (leNat v) ++ [':', ' '] ++ tableText darwinErrors (leNat v) ++ [']']

/-- `LocationSQLiteResultFormatStringDecoder.FormatValue` (unified_logging.py 989-1007). -/
def sqliteText (v : Bytes) : List Char :=
  if v.length ≠ 4 then unsupported else ['"'] ++ tableText sqliteResults (leNat v) ++ ['"']

/-- `LocationClientAuthorizationStatusFormatStringDecoder.FormatValue` (unified_logging.py 906-922),
which takes values of any size. -/
def authorizationText (v : Bytes) : List Char := ['"'] ++ tableText authorizationStatus (leNat v) ++ ['"']

/-- `BooleanFormatStringDecoder.FormatValue` (unified_logging.py 530-546). -/
def booleanText (no yes : List Char) (v : Bytes) : List Char := if leNat v ≠ 0 then yes else no

/-! ## Proofs -/

/-- No number and no name occurs twice, and no name looks like the text for a number without a
name. -/
def Distinct (t : Table) : Prop :=
  (t.map (·.1)).Nodup ∧ (t.map (·.2)).Nodup ∧ ∀ p ∈ t, p.2.head? ≠ some '<'

instance (t : Table) : Decidable (Distinct t) := inferInstanceAs (Decidable (_ ∧ _ ∧ _))

theorem lookup_mem (t : Table) (k : Int) (s : List Char) (h : t.lookup k = some s) : (k, s) ∈ t := by
  induction t with
  | nil => cases h
  | cons p t ih =>
    obtain ⟨j, r⟩ := p
    rw [List.lookup_cons] at h
    by_cases hk : (k == j) = true
    · rw [hk] at h
      have hj : k = j := eq_of_beq hk
      subst hj
      have hr : r = s := Option.some.inj h
      subst hr
      exact List.mem_cons_self
    · rw [Bool.eq_false_iff.2 hk] at h
      exact List.mem_cons_of_mem _ (ih h)

theorem mem_lookup (t : Table) (k : Int) (s : List Char) (hn : (t.map (·.1)).Nodup) (h : (k, s) ∈ t) :
    t.lookup k = some s := by
  induction t with
  | nil => cases h
  | cons p t ih =>
    obtain ⟨j, r⟩ := p
    rw [List.map_cons, List.nodup_cons] at hn
    rw [List.lookup_cons]
    rcases List.mem_cons.1 h with hm | hm
    · cases hm
      simp
    · have hk : ¬ (k == j) = true := by
        intro hk
        have hj : k = j := eq_of_beq hk
        subst hj
        exact hn.1 (List.mem_map.2 ⟨_, hm, rfl⟩)
      rw [Bool.eq_false_iff.2 hk]
      exact ih hn.2 hm

theorem name_unique (t : Table) (h : (t.map (·.2)).Nodup) (j k : Int) (s : List Char) (hj : (j, s) ∈ t)
    (hk : (k, s) ∈ t) : j = k := by
  induction t with
  | nil => cases hj
  | cons p t ih =>
    rw [List.map_cons, List.nodup_cons] at h
    rcases List.mem_cons.1 hj with hj | hj <;> rcases List.mem_cons.1 hk with hk | hk
    · rw [← hj] at hk
      exact (Prod.mk.inj hk).1.symm
    · exact absurd (List.mem_map.2 ⟨_, hk, by rw [← hj]⟩) h.1
    · exact absurd (List.mem_map.2 ⟨_, hj, by rw [← hk]⟩) h.1
    · exact ih h.2 hj hk

theorem unknown_injective (m n : Nat) (h : unknownValue m = unknownValue n) : m = n := by
  unfold unknownValue at h
  rw [List.append_assoc, List.append_assoc] at h
  exact digits_injective 10 (by decide) (by decide) m n (List.append_cancel_right (List.append_cancel_left h))

theorem tableText_injective (t : Table) (hd : Distinct t) (m n : Nat) (h : tableText t m = tableText t n) : m = n := by
  unfold tableText at h
  obtain ⟨_, h2, h3⟩ := hd
  have hu : ∀ k, (unknownValue k).head? = some '<' := fun k => rfl
  cases hm : t.lookup (m : Int) with
  | none =>
    cases hn : t.lookup (n : Int) with
    | none =>
      rw [hm, hn] at h
      exact unknown_injective m n h
    | some s =>
      rw [hm, hn] at h
      exact absurd ((congrArg List.head? h).symm.trans (hu m)) (h3 _ (lookup_mem t _ _ hn))
  | some r =>
    cases hn : t.lookup (n : Int) with
    | none =>
      rw [hm, hn] at h
      exact absurd ((congrArg List.head? h).trans (hu n)) (h3 _ (lookup_mem t _ _ hm))
    | some s =>
      rw [hm, hn] at h
      have hrs : r = s := h
      subst hrs
      have := name_unique t h2 _ _ _ (lookup_mem t _ _ hm) (lookup_mem t _ _ hn)
      omega

theorem distinct_tables : Distinct authorizationStatus ∧ Distinct sqliteResults ∧ Distinct mdnsProtocols ∧
    Distinct mdnsReasons ∧ Distinct mdnsRecordTypes ∧ Distinct directoryErrors ∧ Distinct membershipKinds := by
  decide +kernel

theorem leNat_inj4 (v w : Bytes) (hv : v.length = 4) (hw : w.length = 4) (h : leNat v = leNat w) : v = w := by
  rw [← leBytes_leNat v, ← leBytes_leNat w, hv, hw, h]

/-- C114.  A known number is shown as its name. -/
theorem C114_name (t : Table) (ht : (t.map (·.1)).Nodup) (n : Nat) (hn : n < 256 ^ 4) (name : List Char)
    (h : ((n : Int), name) ∈ t) : tableDecoder t (leBytes 4 n) = name := by
  unfold tableDecoder tableText
  rw [if_neg (by simp), leNat_leBytes, Nat.mod_eq_of_lt hn, mem_lookup t _ _ ht h]
  rfl

/-- C114.  A number without a name is shown as the number. -/
theorem C114_number (t : Table) (n : Nat) (hn : n < 256 ^ 4) (h : (n : Int) ∉ t.map (·.1)) :
    tableDecoder t (leBytes 4 n) = "<decode: unknown value: ".toList ++ dec n ++ ">".toList := by
  unfold tableDecoder tableText
  rw [if_neg (by simp), leNat_leBytes, Nat.mod_eq_of_lt hn]
  cases hl : t.lookup (n : Int) with
  | none => rfl
  | some s => exact absurd (List.mem_map.2 ⟨_, lookup_mem t _ _ hl, rfl⟩) h

/-- C114.  The text of a DNS protocol, reason or record type, of an Open Directory error or membership
type, of a SQLite result or of an authorization state determines the value. -/
theorem C114_injective (v w : Bytes) (hv : v.length = 4) (hw : w.length = 4) :
    (∀ t ∈ [mdnsProtocols, mdnsReasons, mdnsRecordTypes, directoryErrors, membershipKinds],
      tableDecoder t v = tableDecoder t w → v = w) ∧
      (sqliteText v = sqliteText w → v = w) ∧ (authorizationText v = authorizationText w → v = w) := by
  obtain ⟨d1, d2, d3, d4, d5, d6, d7⟩ := distinct_tables
  have hq : ∀ a b : List Char, ['"'] ++ a ++ ['"'] = ['"'] ++ b ++ ['"'] → a = b := by
    intro a b h
    rw [List.append_assoc, List.append_assoc] at h
    exact List.append_cancel_right (List.append_cancel_left h)
  refine ⟨?_, ?_, ?_⟩
  · intro t ht h
    unfold tableDecoder at h
    rw [if_neg (by omega), if_neg (by omega)] at h
    have hd : Distinct t := by
      simp only [List.mem_cons, List.not_mem_nil, or_false] at ht
      rcases ht with rfl | rfl | rfl | rfl | rfl <;> assumption
    exact leNat_inj4 v w hv hw (tableText_injective t hd _ _ h)
  · intro h
    unfold sqliteText at h
    rw [if_neg (by omega), if_neg (by omega)] at h
    exact leNat_inj4 v w hv hw (tableText_injective _ d2 _ _ (hq _ _ h))
  · intro h
    exact leNat_inj4 v w hv hw (tableText_injective _ d1 _ _ (hq _ _ h))

/-- C114.  With the number in front, the text of an error code determines the code. -/
theorem C114_extended (v w : Bytes) (hv : v.length = 4) (hw : w.length = 4)
    (h : extendedErrorText v = extendedErrorText w) : v = w := by
  unfold extendedErrorText at h
  rw [if_neg (by omega), if_neg (by omega)] at h
  simp only [List.append_assoc] at h
  have h := List.append_cancel_left h
  have hs := congrArg (splitOn ':') h
  have hc : ∀ n, ':' ∉ dec n := by
    intro n hm
    obtain ⟨d, hd, he⟩ := mem_digits 10 n (by decide) _ hm
    exact digitChar_ne d (by omega) ':' (by decide) he.symm
  simp only [List.cons_append] at hs
  rw [splitOn_append_sep _ _ _ (hc _), splitOn_append_sep _ _ _ (hc _)] at hs
  exact leNat_inj4 v w hv hw (digits_injective 10 (by decide) (by decide) _ _ (List.cons.inj hs).1)

example : (6 : Int) ∈ membershipKinds.map (·.1) ∧ (2 : Int) ∉ membershipKinds.map (·.1) ∧
    tableDecoder membershipKinds (leBytes 4 6) = "UUID".toList ∧
    tableDecoder membershipKinds (leBytes 4 2) = "<decode: unknown value: 2>".toList := by decide +kernel

/-- C114.  A value of another size is shown as unsupported. -/
theorem C114_size (v : Bytes) (h : v.length ≠ 4) (t : Table) : tableDecoder t v = "<decode: unsupported value>".toList ∧
    sqliteText v = "<decode: unsupported value>".toList ∧ extendedErrorText v = "<decode: unsupported value>".toList := by
  unfold tableDecoder sqliteText extendedErrorText
  rw [if_pos h, if_pos h, if_pos h]
  exact ⟨rfl, rfl, rfl⟩

/-- C114.  A boolean is false exactly when all its bytes are zero, whatever its size. -/
theorem C114_boolean (no yes : List Char) (v : Bytes) :
    booleanText no yes v = if ∀ b ∈ v, b = 0 then no else yes := by
  have hz : leNat v = 0 ↔ ∀ b ∈ v, b = 0 := by
    induction v with
    | nil => simp [leNat]
    | cons b v ih =>
      rw [leNat, List.forall_mem_cons, ← ih]
      have hb : b = 0 ↔ b.toNat = 0 := ⟨fun h => by rw [h]; rfl, fun h => UInt8.toNat_inj.1 h⟩
      rw [hb]
      omega
  unfold booleanText
  by_cases h : leNat v = 0
  · rw [if_neg (fun x => x h), if_pos (hz.1 h)]
  · rw [if_pos h, if_neg (fun x => h (hz.2 x))]

/-- A claim of C114 that fails: the text of an error code determines the code. -/
def C114_errors_claim : Prop := ∀ v w : Bytes, v.length = 4 → w.length = 4 →
  tableDecoder darwinErrors v = tableDecoder darwinErrors w → v = w

/-- C114.  Two codes are both `Reserved`. -/
theorem C114_errors_claim_false : ¬ C114_errors_claim := fun h => by
  have := h (leBytes 4 95) (leBytes 4 97) (by decide) (by decide) (by decide +kernel)
  revert this
  decide

/-- A claim of C114 that fails: every code of the table, stored as a 32-bit integer, is shown as its
name. -/
def C114_negative_claim : Prop := ∀ p ∈ darwinErrors, tableDecoder darwinErrors (leBytes 4 (unsigned 4 p.1)) = p.2

/-- C114.  The codes below zero are in the table but the value is read as an unsigned integer. -/
theorem C114_negative_claim_false : ¬ C114_negative_claim := fun h => by
  have := h (-1, "Restart syscall".toList) (by decide +kernel)
  revert this
  decide +kernel

/-- C114.  No value at all gives the name of a code below zero. -/
theorem C114_negative_unreachable (v : Bytes) : ∀ p ∈ darwinErrors, p.1 < 0 → tableDecoder darwinErrors v ≠ p.2 := by
  intro p hp hneg
  have hall : ∀ p ∈ darwinErrors, p.1 < 0 → p.2 ≠ unsupported ∧ p.2.head? ≠ some '<' ∧
      ∀ q ∈ darwinErrors, q.2 = p.2 → q.1 < 0 := by decide +kernel
  obtain ⟨h1, h2, h3⟩ := hall p hp hneg
  unfold tableDecoder
  by_cases hl : v.length = 4
  · rw [if_neg (by omega)]
    unfold tableText
    cases hk : darwinErrors.lookup (leNat v : Int) with
    | none => exact fun he => h2 (by rw [← he]; rfl)
    | some s =>
      intro he
      have := h3 _ (lookup_mem _ _ _ hk) he
      simp only at this
      omega
  · rw [if_pos hl]
    exact fun he => h1 he.symm

/-- C114.  Apart from the reserved ones, the text of an error code determines the code. -/
theorem C114_errors_partial (v w : Bytes) (hv : v.length = 4) (hw : w.length = 4)
    (h : tableDecoder darwinErrors v = tableDecoder darwinErrors w)
    (hr : tableDecoder darwinErrors v ≠ "Reserved".toList) : v = w := by
  have hall : ∀ p ∈ darwinErrors, ∀ q ∈ darwinErrors, p.2 = q.2 → p.2 ≠ "Reserved".toList → p.1 = q.1 := by
    decide +kernel
  have hh : ∀ p ∈ darwinErrors, p.2.head? ≠ some '<' := by decide +kernel
  unfold tableDecoder at h hr
  rw [if_neg (by omega)] at h hr
  rw [if_neg (by omega)] at h
  apply leNat_inj4 v w hv hw
  unfold tableText at h hr
  cases h1 : darwinErrors.lookup (leNat v : Int) with
  | none =>
    cases h2 : darwinErrors.lookup (leNat w : Int) with
    | none =>
      rw [h1, h2] at h
      exact unknown_injective _ _ h
    | some s =>
      rw [h1, h2] at h
      exact absurd ((congrArg List.head? h).symm.trans rfl) (hh _ (lookup_mem _ _ _ h2))
  | some r =>
    cases h2 : darwinErrors.lookup (leNat w : Int) with
    | none =>
      rw [h1, h2] at h
      exact absurd ((congrArg List.head? h).trans rfl) (hh _ (lookup_mem _ _ _ h1))
    | some s =>
      rw [h1] at hr
      rw [h1, h2] at h
      have := hall _ (lookup_mem _ _ _ h1) _ (lookup_mem _ _ _ h2) h hr
      simp only at this
      omega

example : tableDecoder darwinErrors (leBytes 4 13) = "Permission denied".toList := by decide +kernel

end Dtf.Unified
