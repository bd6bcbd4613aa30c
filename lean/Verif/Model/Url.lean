import Verif.Model.Basic
/-!
# URL parsing — librabbitmq/amqp_url.c

The buffer is modified in place, so the model works on real positions in it; reading or writing outside it is undefined.
-/
namespace Rmq.UrlM

/-- What the C implementation is free to choose: CHAR_MAX (127 where `char` is signed, 255 where it is not), and whether `sscanf` with
`%2x` accepts "0x" as the number 0 (glibc does, the C standard does not). (amqp_url.c:19-78; include/rabbitmq-c/amqp.h:2184-2191.) -/
structure UEnv where
  charMax : Nat
  zeroX : Bool
deriving Repr, DecidableEq

/-- A `char *` in the result: a literal of the library, or a pointer into the caller's buffer. (amqp_url.c:19-78; include/rabbitmq-c/amqp.h:2184-2191.) -/
inductive CStr where
  | lit (s : Bytes)
  | ptr (pos : Nat)
deriving Repr, DecidableEq

/-- `struct amqp_connection_info`, include/rabbitmq-c/amqp.h. -/
structure ConnInfo where
  user : CStr
  password : CStr
  host : CStr
  vhost : CStr
  port : Int
  ssl : Bool
deriving Repr, DecidableEq

/-- amqp_url.c:19-78; include/rabbitmq-c/amqp.h:2184-2191. -/
structure UrlSt where
  buf : Bytes
  info : ConnInfo
deriving Repr, DecidableEq

/-- characters (Accesses to the string in amqp_url.c:30-188.) -/
def ch (c : Char) : UInt8 := UInt8.ofNat c.toNat
/-- Accesses to the string in amqp_url.c:30-188. -/
def chs (s : String) : Bytes := s.toList.map ch

/-- amqp_default_connection_info, amqp_url.c:19-27. -/
def defaultInfo : ConnInfo :=
  { user := .lit (chs "guest"), password := .lit (chs "guest"), host := .lit (chs "localhost"), vhost := .lit (chs "/"), port := 5672,
    ssl := false }

/-- The C string in a buffer: what is there before the first NUL; `none` if there is no NUL in the buffer. (Accesses to the string in amqp_url.c:30-188.) -/
def cstr? (b : Bytes) : Option Bytes := if 0 ∈ b then some (b.takeWhile (· ≠ 0)) else none

/-- Accesses to the string in amqp_url.c:30-188. -/
def rdAt (i : Nat) : M UrlSt UInt8 := fun s =>
  match s.buf[i]? with
  | some c => .ok c s
  | none => .ub

/-- Accesses to the string in amqp_url.c:30-188. -/
def wrAt (i : Nat) (c : UInt8) : M UrlSt Unit := fun s => if i < s.buf.length then .ok () { s with buf := s.buf.set i c } else .ub

/-- The C string at a position. (Accesses to the string in amqp_url.c:30-188.) -/
def strAt (i : Nat) : M UrlSt Bytes := fun s =>
  match cstr? (s.buf.drop i) with
  | some c => .ok c s
  | none => .ub

/-- `isspace` in the C locale. (sscanf("%2x") at amqp_url.c:59.) -/
def isSpace (c : UInt8) : Bool := c = 0x20 || (0x09 ≤ c && c ≤ 0x0D)

/-- The value of a hexadecimal digit. (sscanf("%2x") at amqp_url.c:59.) -/
def hexVal? (c : UInt8) : Option Nat :=
  if ch '0' ≤ c ∧ c ≤ ch '9' then some (c.toNat - 48)
  else if ch 'a' ≤ c ∧ c ≤ ch 'f' then some (c.toNat - 87)
  else if ch 'A' ≤ c ∧ c ≤ ch 'F' then some (c.toNat - 55)
  else none

/-- The digits part of a `%x` conversion with `w` characters of width left: value and number of characters used. (sscanf("%2x") at amqp_url.c:59.) -/
def scanDigits (env : UEnv) (w : Nat) (s : Bytes) : Option (Nat × Nat) :=
  match s with
  | [] => none
  | c :: s =>
    match hexVal? c with
    | none => none
    | some v =>
      if w < 2 then some (v, 1) else
      match s with
      | [] => some (v, 1)
      | d :: _ =>
        match hexVal? d with
        | some v' => some (v * 16 + v', 2)
        | none => if c = ch '0' ∧ (d = ch 'x' ∨ d = ch 'X') then (if env.zeroX then some (0, 2) else none) else some (v, 1)

/-- `sscanf(s, "%2x%n", &val, &chars)`, used at amqp_url.c:60, as the C standard describes it: white space is skipped, a sign counts for
the width, a negated value is taken modulo 2^32.  `none` is "no conversion". -/
def sscanf2x (env : UEnv) (s : Bytes) : Option (Nat × Nat) :=
  let ws := (s.takeWhile isSpace).length
  match s.drop ws with
  | [] => none
  | c :: r =>
    if c = ch '+' then (scanDigits env 1 r).map fun (v, n) => (v, ws + 1 + n)
    else if c = ch '-' then (scanDigits env 1 r).map fun (v, n) => ((2 ^ 32 - v) % 2 ^ 32, ws + 1 + n)
    else (scanDigits env 2 (c :: r)).map fun (v, n) => (v, ws + n)

/-- Is this one of the delimiters of the switch at amqp_url.c:37-54? -/
def isDelim (colonAt : Bool) (c : UInt8) : Bool :=
  c = 0 || c = ch '/' || c = ch '?' || c = ch '#' || c = ch '[' || c = ch ']' || (colonAt && (c = ch ':' || c = ch '@'))

/-- The loop of find_delim, amqp_url.c:34-76; `pp` is the value `*pp` had on entry (kept when '%' is returned).  Result: the delimiter
and the new `*pp`. -/
def findDelimLoop (env : UEnv) (colonAt : Bool) (pp : Nat) : Nat → Nat → Nat → M UrlSt (UInt8 × Nat)
  | 0, _, _ => M.outOfFuel
  | n + 1, from_, to_ => do
    let c ← rdAt from_
    if isDelim colonAt c then do
      wrAt to_ 0
      pure (c, from_ + 1)
    else if c = ch '%' then do
      let s ← strAt (from_ + 1)
      match sscanf2x env s with
      | none => pure (ch '%', pp)
      | some (val, chars) =>
        if chars ≠ 2 ∨ val > env.charMax then pure (ch '%', pp) else do
          wrAt to_ (UInt8.ofNat val)
          findDelimLoop env colonAt pp n (from_ + 3) (to_ + 1)
    else do
      wrAt to_ c
      findDelimLoop env colonAt pp n (from_ + 1) (to_ + 1)

/-- find_delim, amqp_url.c:30-77.  (The fuel, one more than the buffer's length, is proved sufficient.) -/
def findDelim (env : UEnv) (pp : Nat) (colonAt : Bool) : M UrlSt (UInt8 × Nat) := fun s =>
  findDelimLoop env colonAt pp (s.buf.length + 1) pp pp s

/-- The value of a run of decimal digits. (strtol at amqp_url.c:161.) -/
def decVal (s : Bytes) : Nat := s.foldl (fun v c => v * 10 + (c.toNat - 48)) 0

/-- `isdigit`. (strtol at amqp_url.c:161.) -/
def isDigit (c : UInt8) : Bool := ch '0' ≤ c && c ≤ ch '9'

/-- `strtol(s, &end, 10)` with 64-bit `long`: `none` when there is no number (`end == s`), else the value (clamped) and what is left at
`end`. (strtol at amqp_url.c:161.) -/
def strtol10 (s : Bytes) : Option (Int × Bytes) :=
  let r := s.dropWhile isSpace
  let (neg, r) := match r with
    | c :: r' => if c = ch '+' then (false, r') else if c = ch '-' then (true, r') else (false, r)
    | [] => (false, [])
  let ds := r.takeWhile isDigit
  if ds = [] then none else
  let v : Int := if neg then max (-(2 ^ 63)) (-(decVal ds : Int)) else min (2 ^ 63 - 1) (decVal ds : Int)
  some (v, r.drop ds.length)

/-- Assignments to `parsed`, amqp_url.c:81-188. -/
def setInfo (f : ConnInfo → ConnInfo) : M UrlSt Unit := fun s => .ok () { s with info := f s.info }

/-- The port number part, amqp_url.c:159-168. -/
def parsePort (port : Option Nat) : M UrlSt Unit :=
  match port with
  | none => pure ()
  | some p => do
    let s ← strAt p
    match strtol10 s with
    | none => M.fail St.BAD_URL
    | some (v, rest) => if rest ≠ [] ∨ v < 0 ∨ v > 65535 then M.fail St.BAD_URL else setInfo (fun i => { i with port := v })

/-- The end of amqp_parse_url: port number and vhost, amqp_url.c:159-182. -/
def parseEnd (env : UEnv) (port : Option Nat) (delim : UInt8) (url : Nat) : M UrlSt Unit := do
  parsePort port
  if delim = ch '/' then do
    let (d, _) ← findDelim env url true
    if d ≠ 0 then M.fail St.BAD_URL else
    setInfo (fun i => { i with vhost := .ptr url })
  else if delim = 0 then pure ()
  else M.fail St.BAD_URL

/-- amqp_parse_url after the host: amqp_url.c:154-182. -/
def parseTail (env : UEnv) (port : Option Nat) (delim : UInt8) (url : Nat) : M UrlSt Unit :=
  if delim = ch ':' then do
    let (d, u) ← findDelim env url true
    parseEnd env (some url) d u
  else parseEnd env port delim url

/-- The host part and what follows, amqp_url.c:124-182. -/
def parseHost (env : UEnv) (host start : Nat) (port : Option Nat) (delim : UInt8) (url : Nat) : M UrlSt Unit :=
  if delim = ch '[' then do
    let c ← rdAt host
    if host ≠ start ∨ c ≠ 0 then M.fail St.BAD_URL else do
    let (d, url') ← findDelim env url false
    if d ≠ ch ']' then M.fail St.BAD_URL else do
    setInfo (fun i => { i with host := .ptr url })
    let (delim, url'') ← findDelim env url' true
    let c ← rdAt url'
    if c ≠ 0 then M.fail St.BAD_URL else
    parseTail env port delim url''
  else do
    let c ← rdAt host
    if c ≠ 0 then setInfo (fun i => { i with host := .ptr host }) else pure ()
    parseTail env port delim url

/-- amqp_parse_url once the first delimiter that is not the first colon is known: amqp_url.c:111-182. -/
def parseUser (env : UEnv) (host start : Nat) (port : Option Nat) (delim : UInt8) (url : Nat) : M UrlSt Unit :=
  if delim = ch '@' then do
    setInfo (fun i => { i with user := .ptr host, password := (port.map CStr.ptr).getD i.password })
    let (d, u) ← findDelim env url true
    parseHost env url url none d u
  else parseHost env host start port delim url

/-- amqp_parse_url after the scheme, amqp_url.c:100-182. -/
def parseAuthority (env : UEnv) (url : Nat) : M UrlSt Unit := do
  let (delim, url') ← findDelim env url true
  if delim = ch ':' then do
    let (d, u) ← findDelim env url' true
    parseUser env url url' (some url') d u
  else parseUser env url url none delim url'

/-- amqp_parse_url, amqp_url.c:80-188.  `ok ()` is AMQP_STATUS_OK.  (`rdAt host` at line 127 is evaluated in C only if `host == start`; the
position is inside the buffer either way.) -/
def parseUrlM (env : UEnv) : M UrlSt Unit := do
  let s ← strAt 0
  if (chs "amqp://").isPrefixOf s then parseAuthority env 7
  else if (chs "amqps://").isPrefixOf s then do
    setInfo (fun i => { i with port := 5671, ssl := true })
    parseAuthority env 8
  else M.fail St.BAD_URL

/-- amqp_parse_url on a caller's buffer. (amqp_url.c:81-188.) -/
def parseUrl (env : UEnv) (buf : Bytes) : Res UrlSt Unit := parseUrlM env ⟨buf, defaultInfo⟩

end Rmq.UrlM
