import Verif.Model.Api
import Verif.Spec.Conn
/-!
# Specification vocabulary for login: SASL, the handshake's frames
-/
namespace Rmq

/-- The octet separating the words of a list of mechanisms. -/
def SPACE : UInt8 := 32

/-- `w` is a whole word of the space-separated list `list`: it contains no space, what precedes it is nothing or ends with a space,
what follows it is nothing or begins with a space. -/
def IsWord (w list : Bytes) : Prop :=
  SPACE ∉ w ∧ ∃ pre post, list = pre ++ w ++ post ∧ (pre = [] ∨ ∃ p, pre = p ++ [SPACE]) ∧ (post = [] ∨ ∃ p, post = SPACE :: p)

/-- The C library's memcmp, as far as login uses it: 0 exactly for equal blocks (of the same size). -/
def MemcmpExact (memcmp : Bytes → Bytes → Int) : Prop := ∀ l r : Bytes, l.length = r.length → (memcmp l r = 0 ↔ l = r)

/-- The response of a SASL mechanism (RFC 4616 for PLAIN, with an empty authorisation identity; RFC 4422 for EXTERNAL). -/
def Sasl.response : Sasl → Bytes
  | .plain user password => [0] ++ user ++ [0] ++ password
  | .external identity => identity
/-- The registered name of the mechanism. -/
def Sasl.ianaName : Sasl → String
  | .plain _ _ => "PLAIN"
  | .external _ => "EXTERNAL"

/-- The frames a client sends during the handshake, as they are on the wire. -/
def startOkFrame (props : Table) (mechanism response : Bytes) : Bytes :=
  rawFrame 1 0 ([0, 10, 0, 11] ++ serTable props ++ serShort mechanism ++ serLong response ++ serShort (cstr "en_US")) 206
def tuneOkFrame (channelMax : UInt16) (frameMax : UInt32) (heartbeat : UInt16) : Bytes :=
  rawFrame 1 0 ([0, 10, 0, 31] ++ beBytes 2 channelMax.toNat ++ beBytes 4 frameMax.toNat ++ beBytes 2 heartbeat.toNat) 206
def openFrame (vhost : Bytes) : Bytes := rawFrame 1 0 ([0, 10, 0, 40] ++ serShort vhost ++ [0] ++ [1]) 206

/-- connection.start, as received on channel 0, offering protocol 0-9 and listing the mechanism. -/
def SuitableStart (m : Sasl) (f : AFrame) : Prop :=
  ∃ r mech, f = ⟨0, .method 0x000A000A r⟩ ∧ r.get? .version_major = some (.u8 0) ∧ r.get? .version_minor = some (.u8 9) ∧
    r.get? .mechanisms = some (.bytes mech) ∧ IsWord (cstr m.ianaName) mech

/-- connection.tune, as received on channel 0, with the broker's wishes. -/
def TuneFrame (channelMax : UInt16) (frameMax : UInt32) (heartbeat : UInt16) (f : AFrame) : Prop :=
  ∃ r, f = ⟨0, .method 0x000A001E r⟩ ∧ r.get? .channel_max = some (.u16 channelMax) ∧ r.get? .frame_max = some (.u32 frameMax) ∧
    r.get? .heartbeat = some (.u16 heartbeat)

/-- The application was given `f` by a wait on the connection. -/
def Received (E : NetEnv) (s : Conn) (f : AFrame) (s' : Conn) : Prop := ∃ tv d, waitFrame E tv s = .ok d s' ∧ d.frame = f

/-- The frame `f` came in from the wire. -/
def Arrived (E : NetEnv) (s : Conn) (f : AFrame) (s' : Conn) : Prop := ∃ deadline d, waitFrameInner E deadline s = .ok d s' ∧ d.frame = f

/-- `Sent s s' bs`: between `s` and `s'` exactly the bytes `bs` were put on the wire. -/
def Sent (s s' : Conn) (bs : Bytes) : Prop := ∃ l, Since s s' l ∧ sentBytes l = bs

/-- No value above the limit `lim`, where 0 is no limit. -/
def AtMost (v lim : Nat) : Prop := lim ≠ 0 → v ≤ lim

end Rmq
