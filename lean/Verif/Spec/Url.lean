import Verif.Model.Url
/-!
# Specification: URLs
-/
namespace Rmq.UrlM

/-- The hexadecimal value of a two-digit escape, digits in either case. -/
def IsHex (c : UInt8) (v : Nat) : Prop :=
  v < 16 ∧ (c.toNat = 48 + v ∧ v < 10 ∨ c.toNat = 97 + (v - 10) ∧ 10 ≤ v ∨ c.toNat = 65 + (v - 10) ∧ 10 ≤ v)

/-- The characters that cannot stand for themselves in a component. -/
def reserved (colonAt : Bool) : Bytes := [0, ch '/', ch '?', ch '#', ch '[', ch ']', ch '%'] ++ if colonAt then [ch ':', ch '@'] else []

/-- `e` is a percent-encoding of the string `s` of non-zero characters: every character is either written as itself (if it is not reserved)
or, if ASCII, as `%hh`. -/
inductive Encodes (colonAt : Bool) : Bytes → Bytes → Prop where
  | nil : Encodes colonAt [] []
  | lit {c e s} : c ∉ reserved colonAt → Encodes colonAt e s → Encodes colonAt (c :: e) (c :: s)
  | esc {a b x y c e s} : IsHex a x → IsHex b y → c.toNat = x * 16 + y → 0 < x * 16 + y → x * 16 + y ≤ 127 → Encodes colonAt e s →
      Encodes colonAt (ch '%' :: a :: b :: e) (c :: s)

/-- How the host is written. -/
inductive HostPart where
  | name (s : Bytes)
  | bracketed (s : Bytes)

/-- The number that decimal digits denote. -/
def decimal : Bytes → Nat
  | [] => 0
  | c :: cs => (c.toNat - 48) * 10 ^ cs.length + decimal cs

/-- Blank characters: space, tab, newline, vertical tab, form feed, carriage return. -/
def IsBlank (c : UInt8) : Prop := c.toNat = 32 ∨ (9 ≤ c.toNat ∧ c.toNat ≤ 13)

/-- A decimal port number as written (any number of leading zeros), and its value. -/
def PortText (text : Bytes) (n : Nat) : Prop := text ≠ [] ∧ (∀ c ∈ text, 48 ≤ c.toNat ∧ c.toNat ≤ 57) ∧ decimal text = n ∧ n ≤ 65535

/-- The components a URL is made of. -/
structure UrlParts where
  ssl : Bool
  user : Option Bytes
  password : Option Bytes
  host : HostPart
  port : Option Nat
  vhost : Option Bytes

/-- `text` is a way to write the URL with these components.  A password can only follow a user. -/
inductive UrlText (u : UrlParts) : Bytes → Prop where
  | mk {ui h p v : Bytes}
      (hui : (u.user = none ∧ u.password = none ∧ ui = []) ∨
             (∃ x e, u.user = some x ∧ Encodes true e x ∧ u.password = none ∧ ui = e ++ [ch '@']) ∨
             (∃ x e y f, u.user = some x ∧ Encodes true e x ∧ u.password = some y ∧ Encodes true f y ∧ ui = e ++ [ch ':'] ++ f ++ [ch '@']))
      (hh : (∃ x e, u.host = .name x ∧ Encodes true e x ∧ h = e) ∨
            (∃ x e, u.host = .bracketed x ∧ Encodes false e x ∧ h = [ch '['] ++ e ++ [ch ']']))
      (hp : (u.port = none ∧ p = []) ∨ (∃ n t, u.port = some n ∧ PortText t n ∧ p = [ch ':'] ++ t))
      (hv : (u.vhost = none ∧ v = []) ∨ (∃ x e, u.vhost = some x ∧ Encodes true e x ∧ v = [ch '/'] ++ e)) :
      UrlText u ((if u.ssl then chs "amqps://" else chs "amqp://") ++ ui ++ h ++ p ++ v)

/-- The string a `char *` of the result points to. -/
def CStr.read (buf : Bytes) : CStr → Option Bytes
  | .lit s => some s
  | .ptr p => cstr? (buf.drop p)

/-- What the caller sees in the result. -/
structure UrlInfo where
  user : Option Bytes
  password : Option Bytes
  host : Option Bytes
  vhost : Option Bytes
  port : Int
  ssl : Bool
deriving DecidableEq

def UrlSt.view (s : UrlSt) : UrlInfo :=
  ⟨s.info.user.read s.buf, s.info.password.read s.buf, s.info.host.read s.buf, s.info.vhost.read s.buf, s.info.port, s.info.ssl⟩

/-- What the components mean, with the documented defaults. -/
def UrlParts.expected (u : UrlParts) : UrlInfo where
  user := some (u.user.getD (chs "guest"))
  password := some (u.password.getD (chs "guest"))
  host := some (match u.host with | .name s => if s = [] then chs "localhost" else s | .bracketed s => s)
  vhost := some (u.vhost.getD (chs "/"))
  port := u.port.getD (if u.ssl then 5671 else 5672)
  ssl := u.ssl

/-- The two characters after a percent sign are an escape the library accepts: two hexadecimal digits, or one of the odd forms that
`sscanf` lets through (a blank and a digit not followed by another, a plus sign and a digit, "-0", and "0x" on a lax C library). -/
def AcceptedEscape (env : UEnv) (s : Bytes) : Prop :=
  (∃ a b r x y, s = a :: b :: r ∧ IsHex a x ∧ IsHex b y ∧ x * 16 + y ≤ env.charMax) ∨
  (∃ a b r x, s = a :: b :: r ∧ isSpace a = true ∧ IsHex b x ∧ ∀ c y, r.head? = some c → ¬ IsHex c y) ∨
  (∃ b r x, s = ch '+' :: b :: r ∧ IsHex b x) ∨
  (∃ r, s = ch '-' :: ch '0' :: r) ∨
  (env.zeroX = true ∧ ∃ b r, s = ch '0' :: b :: r ∧ (b = ch 'x' ∨ b = ch 'X'))

/-! ## What is accepted -/

/-- The two characters `a`, `b` after a percent sign stand for the number `v` (`next` is what follows): two hexadecimal digits up to
CHAR_MAX, or one of the odd forms above. -/
def EscapeOf (env : UEnv) (a b : UInt8) (next : Bytes) (v : Nat) : Prop :=
  (∃ x y, IsHex a x ∧ IsHex b y ∧ v = x * 16 + y ∧ v ≤ env.charMax) ∨
  (isSpace a = true ∧ IsHex b v ∧ ∀ c y, next.head? = some c → ¬ IsHex c y) ∨
  (a = ch '+' ∧ IsHex b v) ∨
  (a = ch '-' ∧ b = ch '0' ∧ v = 0) ∨
  (env.zeroX = true ∧ a = ch '0' ∧ (b = ch 'x' ∨ b = ch 'X') ∧ v = 0)

/-- `e` is an accepted way of writing the characters `s`: as `Encodes`, but with every accepted escape, which may also stand for NUL. -/
inductive Loose (env : UEnv) (colonAt : Bool) : Bytes → Bytes → Prop where
  | nil : Loose env colonAt [] []
  | lit {c e s} : c ∉ reserved colonAt → Loose env colonAt e s → Loose env colonAt (c :: e) (c :: s)
  | esc {a b v e s} : EscapeOf env a b e v → Loose env colonAt e s → Loose env colonAt (ch '%' :: a :: b :: e) (UInt8.ofNat v :: s)

/-- A component as the caller sees it: a C string, ended by the first NUL. -/
def Component (env : UEnv) (colonAt : Bool) (e x : Bytes) : Prop := ∃ s, Loose env colonAt e s ∧ x = s.takeWhile (· ≠ 0)

/-- A port number as `strtol` reads it: blanks, a sign, digits. -/
def PortLoose (text : Bytes) (n : Nat) : Prop :=
  ∃ blanks sign digits : Bytes, text = blanks ++ sign ++ digits ∧ (∀ c ∈ blanks, IsBlank c) ∧
    (sign = [] ∨ sign = [ch '+'] ∨ (sign = [ch '-'] ∧ n = 0)) ∧ digits ≠ [] ∧ (∀ c ∈ digits, 48 ≤ c.toNat ∧ c.toNat ≤ 57) ∧
    decimal digits = n ∧ n ≤ 65535

/-- `text` is an accepted way to write the URL with these components.  Beyond `UrlText`: odd escapes and escapes of NUL; text that is empty
up to such a NUL around a bracketed host; blanks and a sign before the port; and, without user, an ignored part between a plain host and the
port. -/
inductive LooseText (env : UEnv) (u : UrlParts) : Bytes → Prop where
  | mk {ui h p v : Bytes}
      (hui : (u.user = none ∧ u.password = none ∧ ui = []) ∨
             (∃ x e, u.user = some x ∧ Component env true e x ∧ u.password = none ∧ ui = e ++ [ch '@']) ∨
             (∃ x e y f, u.user = some x ∧ Component env true e x ∧ u.password = some y ∧ Component env true f y ∧
               ui = e ++ [ch ':'] ++ f ++ [ch '@']))
      (hh : (∃ x, u.host = .name x ∧ Component env true h x) ∨
            (∃ x e g g', u.host = .bracketed x ∧ Component env false e x ∧ Component env true g [] ∧ Component env true g' [] ∧
              h = g ++ [ch '['] ++ e ++ [ch ']'] ++ g'))
      (hp : (u.port = none ∧ p = []) ∨
            (∃ n t x, u.port = some n ∧ Component env true t x ∧ PortLoose x n ∧ p = [ch ':'] ++ t) ∨
            (∃ n t x j y, u.user = none ∧ (∃ x, u.host = .name x) ∧ u.port = some n ∧ Component env true t x ∧ PortLoose x n ∧
              Component env true j y ∧ p = [ch ':'] ++ j ++ [ch ':'] ++ t))
      (hv : (u.vhost = none ∧ v = []) ∨ (∃ x e, u.vhost = some x ∧ Component env true e x ∧ v = [ch '/'] ++ e)) :
      LooseText env u ((if u.ssl then chs "amqps://" else chs "amqp://") ++ ui ++ h ++ p ++ v)

end Rmq.UrlM
