import Verif.Spec.Tools
import Verif.Spec.Rpc
import Verif.Spec.Login
/-!
# Specification: what a tool says to the server
-/
namespace Rmq

/-- The protocol's method. -/
def IsMethod (p : Proto) (c m : String) : Prop := p ∈ protocol ∧ p.clsName = c ∧ p.name = m

/-- A request and its answer: on channel `ch` the method `m` of the class `c` was sent, then nothing but heartbeats; its `-ok` came in, on that
channel, after the request had been sent. -/
def Exchange (E : NetEnv) (ch : UInt16) (c m : String) (args answer : Rec) (s s' : Conn) : Prop :=
  ∃ p q beats t u, IsMethod p c m ∧ IsMethod q c (m ++ "-ok") ∧ FramesOf Beat beats ∧ Sent s s' (methodFrame ch p args ++ beats) ∧
    Sent s t (methodFrame ch p args) ∧ (∃ l, Since t u l) ∧ Arrived E u ⟨ch, .method q.id answer⟩ s'

/-- A connection that was just made and opened: no heartbeats yet, and an output buffer of the size announced. -/
def Fresh (s : Conn) : Prop :=
  (s.heartbeat ≤ 0 ∧ s.nextSend = TIME_INF ∧ s.nextRecv = TIME_INF) ∧ OutReady s ∧ s.outLen < 2 ^ 32 ∧ 12 ≤ s.outLen

/-- The client's part of a login with the mechanism PLAIN: the protocol header (which may be missing: C57), start-ok with the credentials,
tune-ok, open with the virtual host, heartbeats.  `heartbeat` is the interval asked for; a tool asks for as many channels as there may be, and for
frames of 131072 octets: the lower of this and what the server wishes (0 being no wish) is settled. -/
def LoggedIn (user password vhost : Bytes) (heartbeat : Int) (s s' : Conn) : Prop :=
  ∃ hdr props cm fm hb beats, (∃ (sc : UInt16) (sf : UInt32) (sh : UInt16), cm = (if sc = 0 then 65535 else sc) ∧
      fm.toNat = (if sf ≠ 0 ∧ sf.toNat < 131072 then sf.toNat else 131072) ∧
      (hb.toNat : Int) = (if sh ≠ 0 ∧ (sh.toNat : Int) < heartbeat then (sh.toNat : Int) else heartbeat)) ∧ (hdr = [65, 77, 81, 80, 0, 0, 9, 1] ∨ hdr = []) ∧ FramesOf Beat beats ∧
    Sent s s' (hdr ++ startOkFrame props (cstr "PLAIN") ([0] ++ user ++ [0] ++ password) ++ tuneOkFrame cm fm hb ++ openFrame vhost ++ beats)

end Rmq

namespace Rmq.ToolsSpec
open Rmq Rmq.ToolsM

/-- What an act puts on the wire, always on channel 1 (`fm` is the negotiated maximum frame size): the request of a call with the values given,
an acknowledgement of one delivery, a message in frames that are not too large; nothing for anything else. -/
inductive Says (fm : Int) : Act → Bytes → Prop
  | call (name c m : String) (p : Proto) (args : List Val) : (name, c, m) ∈ rpcFunctions → IsMethod p c m →
      Says fm (.call name args) (methodFrame 1 p (filled p.args args))
  | get (queue : Bytes) (p : Proto) : IsMethod p "basic" "get" →
      Says fm (.get queue) (methodFrame 1 p [(.ticket, .u16 0), (.queue, .bytes queue), (.no_ack, .bool 1)])
  | ack (tag : UInt64) (p : Proto) : IsMethod p "basic" "ack" → Says fm (.ack tag) (methodFrame 1 p [(.delivery_tag, .u64 tag), (.multiple, .bool 0)])
  | publish (ex rk : Bytes) (flags : UInt32) (props : Rec) (body : Bytes) (frags : List Bytes) : frags.flatten = body →
      (∀ b ∈ frags, b ≠ [] ∧ (b.length : Int) + 8 ≤ fm) →
      Says fm (.publish ex rk flags props body) (rawFrame 1 1 (publishPayload ex rk false false) FRAME_END ++
        rawFrame 2 1 (contentHeaderPayload body.length flags props) FRAME_END ++ frags.flatMap fun b => rawFrame 3 1 b FRAME_END)
  | other (a : Act) : (∀ n l, a ≠ .call n l) → (∀ q, a ≠ .get q) → (∀ t, a ≠ .ack t) → (∀ e r f p b, a ≠ .publish e r f p b) → Says fm a []

/-- What some acts put on the wire, one after the other; heartbeats may come in between. -/
inductive Talk (fm : Int) : List Act → Bytes → Prop
  | nil : Talk fm [] []
  | cons (a : Act) (l : List Act) (b beats bs : Bytes) : Says fm a b → FramesOf Beat beats → Talk fm l bs → Talk fm (a :: l) (b ++ beats ++ bs)

/-- The acts that get a tool connected: a TLS or a plain socket; for TLS the CA file and, if there is a key, the certificate and the key, whatever
comes of it; then the connection to the host and port. -/
def setUpActs (st : Start) (t : TlsOpts) (c : ConnTo) : List Act :=
  [.setup (.socket c.ssl)] ++
  (if c.ssl then [.setup (.cacert t.cacert (st.cacert t.cacert))] ++
    (match t.key with | some k => [.setup (.key t.cert k (st.key t.cert k))] | none => []) else []) ++
  [.setup (.connect c.host c.port)]

/-- The arguments of a close with the code 200. -/
def close200 : Rec := [(.reply_code, .u16 200), (.reply_text, .bytes (cstr "200")), (.class_id, .u16 0), (.method_id, .u16 0)]

/-- A whole session, from the connection as it was opened (`s`) to its end: login, opening of channel 1, what the acts `l` say, closing of the
channel and of the connection, each answered by the server. -/
def Conversation (E : NetEnv) (c : ConnTo) (heartbeat : Int) (l : List Act) (s s' : Conn) : Prop :=
  ∃ s1 s2 s3 s4 bs a1 a2 a3, LoggedIn c.user c.password c.vhost heartbeat s s1 ∧ Exchange E 1 "channel" "open" [(.out_of_band, .bytes [])] a1 s1 s2 ∧
    Sent s2 s3 bs ∧ Talk s1.frameMax l bs ∧ Exchange E 1 "channel" "close" close200 a2 s3 s4 ∧
    Exchange E 0 "connection" "close" close200 a3 s4 s'

/-- A run of a tool from its start (`p`) to its end (`p'`), connecting on the socket `s` to where the options say; `l` is what it did while it was
connected. -/
def Session (S : Shell) (st : Start) (env : UrlM.UEnv) (o : ConnOpts) (t : TlsOpts) (file : Option Bytes) (s : Conn) (p p' : Proc) (l : List Act) : Prop :=
  ∃ c, ConnectTo env o file c ∧ 0 ≤ st.connect c.host c.port ∧ p'.acts = p.acts ++ setUpActs st t c ++ [.call "amqp_channel_open" []] ++ l ∧
    Conversation S.net c o.heartbeat l s p'.app.conn

/-- What amqp-publish does while it is connected: one message with the body of the command line (none in line mode), or one per line of the
standard input, or one with the whole of it — each to the exchange and with the routing key and properties of the options. -/
def PublishRun (o : PubOpts) (stdin : Bytes) (l : List Act) : Prop :=
  ((∃ b, o.body = some b ∧ publishedOf l = if o.lineBuffered then [] else [b]) ∨
    (∃ cs, o.body = none ∧ o.lineBuffered = true ∧ Chunked stdin cs ∧ publishedOf l = cs.map fun c => c.takeWhile (· ≠ 0)) ∨
    (o.body = none ∧ o.lineBuffered = false ∧ publishedOf l = [inputOf l] ∧ ∃ k, 0 < k ∧ .read k [] ∈ l)) ∧
  ∀ ex rk flags props body, .publish ex rk flags props body ∈ l → ex = o.exchange.getD [] ∧ rk = o.routingKey.getD [] ∧
    ∃ t, flaggedProps flags props basicProps = wantedProps o t ∧
      ((o.headers = none ∨ o.headers = some []) ∧ t = none ∨ ∃ hs tab, o.headers = some hs ∧ t = some tab ∧ HeaderDefs hs tab)

/-- What was printed. -/
def printedOf : List Act → Bytes
  | [] => []
  | .print b :: l => b ++ printedOf l
  | _ :: l => printedOf l

end Rmq.ToolsSpec
