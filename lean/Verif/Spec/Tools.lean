import Verif.Model.Tools
import Verif.Spec.Url
/-!
# Specification: what can be observed of a run of a tool

Everything is read off the list of acts: what was read and written, which frames arrived, which commands ran.
-/
namespace Rmq.ToolsSpec
open Rmq Rmq.ToolsM
open Rmq.UrlM (chs)

/-- All that was read from the standard input. -/
def inputOf : List Act → Bytes
  | [] => []
  | .read _ b :: l => b ++ inputOf l
  | _ :: l => inputOf l

/-- All that a descriptor took. -/
def outputOf (fd : Nat) : List Act → Bytes
  | [] => []
  | .write fd' b :: l => if fd' = fd then b ++ outputOf fd l else outputOf fd l
  | _ :: l => outputOf fd l

/-- The frames that arrived. -/
def framesOf : List Act → List AFrame
  | [] => []
  | .frame f :: l => f :: framesOf l
  | _ :: l => framesOf l

/-- The contents of the body frames among some frames. -/
def bodyOf : List AFrame → Bytes
  | [] => []
  | f :: l => (match f.payload with | .body b => b | _ => []) ++ bodyOf l

def isBody (f : AFrame) : Prop := ∃ b, f.payload = .body b

/-- A message body was copied: a header frame announcing `size` octets and body frames arrived, nothing else, and the descriptor `fd`
(and no other) took the contents of the body frames in order; their length is `size` (modulo 2^64). -/
structure Copied (fd : Nat) (l : List Act) : Prop where
  frames : ∃ h cls size flags props bodies, framesOf l = h :: bodies ∧ h.payload = .header cls size flags props ∧
    (∀ f ∈ bodies, isBody f) ∧ (bodyOf bodies).length % 2 ^ 64 = size.toNat ∧ outputOf fd l = bodyOf bodies
  only : ∀ a ∈ l, (∃ f, a = .frame f) ∨ (∃ b, a = .write fd b)

/-- The frame is a delivery with this tag. -/
def IsDelivery (f : AFrame) (tag : UInt64) : Prop :=
  ∃ args, f.payload = .method 0x003C003C args ∧ args.get? .delivery_tag = some (.u64 tag)

/-- The frame is not a delivery. -/
def NotDelivery (f : AFrame) : Prop := ∀ args, f.payload ≠ .method 0x003C003C args

/-- What the consuming tool does with one frame it waited for:
* nothing, if it is not a delivery;
* a delivery: start the command with a pipe as standard input, copy the body of the message into that pipe, close it, wait for the command;
  then acknowledge that very delivery if and only if the command exited with status 0 (and acknowledgements are wanted). -/
inductive Round (noAck : Bool) (argv : List Bytes) : Bool → List Act → Prop
  | other (f : AFrame) : NotDelivery f → Round noAck argv false [.frame f]
  | message (f : AFrame) (tag : UInt64) (rd wr : Nat) (copy : List Act) (r : WaitAns) : IsDelivery f tag → Copied wr copy →
      r ≠ .error →
      Round noAck argv true ([.frame f, .pipe rd wr, .spawn argv (if rd = 0 ∨ wr = 0 then none else some rd), .close rd] ++ copy ++
        [.close wr, .wait r] ++ (if r = .exited 0 ∧ noAck = false then [.ack tag] else []))

/-- A sequence of rounds; the flags say which were messages. -/
inductive Rounds (noAck : Bool) (argv : List Bytes) : List Bool → List Act → Prop
  | nil : Rounds noAck argv [] []
  | cons (b : Bool) (bs : List Bool) (l ls : List Act) : Round noAck argv b l → Rounds noAck argv bs ls →
      Rounds noAck argv (b :: bs) (l ++ ls)

/-- The calls that start consuming.  With a --count from 1 to 65535 the server is told to send at most that many; a --prefetch-count in
that range is passed on unless the first limit is already as strict. -/
def startCalls (queue : Bytes) (noAck : Bool) (count prefetch : Int) : List Act :=
  (if 0 < count ∧ count ≤ 65535 then [.call "amqp_basic_qos" [.u32 0, .u16 (UInt16.ofNat count.toNat), .bool 0]] else []) ++
  (if 0 < prefetch ∧ prefetch ≤ 65535 ∧ ¬ (0 < count ∧ count ≤ 65535 ∧ count ≤ prefetch) then
    [.call "amqp_basic_qos" [.u32 0, .u16 (UInt16.ofNat prefetch.toNat), .bool 0]] else []) ++
  [.call "amqp_basic_consume" [.bytes queue, .bytes [], .bool 0, .bool (if noAck then 1 else 0), .bool 0, .table []]]

/-- Acts of which none acknowledges and none reports a successful command. -/
def NoSuccess (l : List Act) : Prop := ∀ a ∈ l, (∀ t, a ≠ .ack t) ∧ a ≠ .wait (.exited 0)

/-- The bodies given to amqp_basic_publish. -/
def publishedOf : List Act → List Bytes
  | [] => []
  | .publish _ _ _ _ b :: l => b :: publishedOf l
  | _ :: l => publishedOf l

/-- A text divided into the messages of line mode: each has at least one octet and at most 32767, a newline only at its end, and is shorter
than 32767 without ending in a newline only at the end of the text. -/
inductive Chunked : Bytes → List Bytes → Prop
  | nil : Chunked [] []
  | cons (c : Bytes) (rest : Bytes) (cs : List Bytes) : c ≠ [] → c.length ≤ 32767 → (10 : UInt8) ∉ c.dropLast →
      (c.getLast? = some 10 ∨ c.length = 32767 ∨ rest = []) → Chunked rest cs → Chunked (c ++ rest) (c :: cs)

/-- The routing keys in a list separated by commas: the pieces between the commas that are not empty. -/
def KeysOf (text : Bytes) (keys : List Bytes) : Prop :=
  ∃ pieces : List Bytes, text = List.intercalate [44] pieces ∧ (∀ p ∈ pieces, (44 : UInt8) ∉ p) ∧ keys = pieces.filter (· ≠ [])

/-- What setting up the queue does, and the name it results in:
* a queue named, no exchange, --declare and --exclusive not given: nothing;
* else the queue is declared (not passive, not durable, auto-delete) and, if an exchange is given, bound once with each of the routing keys,
  in order.  The name is the one given or, without one, the server's (or the empty one if no memory is left for a copy). -/
inductive SetUp (queue exchange routingKey : Option Bytes) (declare exclusive : Bool) : List Act → Bytes → Prop
  | asIs (q : Bytes) : queue = some q → exchange = none → declare = false → exclusive = false →
      SetUp queue exchange routingKey declare exclusive [] q
  | declared (r : Option Rec) (name : Bytes) (copy bind : List Act) :
      (queue = none ∨ exchange ≠ none ∨ declare = true ∨ exclusive = true) →
      ((queue = some name ∧ copy = []) ∨
        ∃ ok f q, queue = none ∧ r = some f ∧ f.get? .queue = some (.bytes q) ∧ copy = [.alloc ok] ∧ name = if ok then q else []) →
      ((exchange = none ∧ bind = []) ∨ ∃ ex k keys, exchange = some ex ∧ routingKey = some k ∧ KeysOf k keys ∧
        bind = .alloc true :: keys.map fun key => .call "amqp_queue_bind" [.bytes name, .bytes ex, .bytes key, .table []]) →
      SetUp queue exchange routingKey declare exclusive
        ([.call "amqp_queue_declare" [.bytes (queue.getD []), .bool 0, .bool 0, .bool (if exclusive then 1 else 0), .bool 1, .table []],
          .answer r] ++ copy ++ bind) name

/-- A user name or password that can be written in an authentication file. -/
def GoodToken (t : Bytes) : Prop := (10 : UInt8) ∉ t ∧ (0 : UInt8) ∉ t ∧ t.length ≤ 117

/-- A header definition `key:value`, spaces before the value being skipped. -/
def HeaderDef (text key value : Bytes) : Prop :=
  ∃ n, text = key ++ [58] ++ List.replicate n 32 ++ value ∧ (58 : UInt8) ∉ key ∧ value.head? ≠ some 32

/-- The header table for some definitions. -/
inductive HeaderDefs : List Bytes → Table → Prop
  | nil : HeaderDefs [] []
  | cons (h key value : Bytes) (hs : List Bytes) (t : Table) : HeaderDef h key value → HeaderDefs hs t →
      HeaderDefs (h :: hs) (.mk key (.utf8 value) :: t)

/-- The properties asked for by the options of amqp-publish, in the order they have on the wire. -/
def wantedProps (o : PubOpts) (headers : Option Table) : Rec :=
  (match o.contentType with | some v => [(.content_type, .bytes v)] | none => []) ++
  (match o.contentEncoding with | some v => [(.content_encoding, .bytes v)] | none => []) ++
  (match headers with | some t => [(.headers, .table t)] | none => []) ++
  [(.delivery_mode, .u8 (if o.persistent then 2 else 1))] ++
  (match o.replyTo with | some v => [(.reply_to, .bytes v)] | none => [])

/-- A port number as strtol and a conversion to int read it: blanks, a sign, decimal digits; the value is clamped to 64 bits, taken modulo
2^32, and must then be between 0 and 65535. -/
def PortRead (text : Bytes) (port : Int) : Prop :=
  ∃ blanks sign digits : Bytes, text = blanks ++ sign ++ digits ∧ (∀ c ∈ blanks, UrlM.IsBlank c) ∧
    (sign = [] ∨ sign = [43] ∨ sign = [45]) ∧ digits ≠ [] ∧ (∀ c ∈ digits, 48 ≤ c.toNat ∧ c.toNat ≤ 57) ∧
    0 ≤ port ∧ port ≤ 65535 ∧
    (2 ^ 32 : Int) ∣ (if sign = [45] then max (-(2 ^ 63)) (-(UrlM.decimal digits : Int)) else min (2 ^ 63 - 1) (UrlM.decimal digits : Int)) - port

/-- Where the options say to connect.  Either a URL says everything, or:
* the host is that of --server (without a port), else localhost;
* the port is that of --port or after a colon in --server (not both), else 5672 — 5671 with --ssl and --server;
* the credentials are those of the authentication file or of --username and --password (guest by default), not both;
* the virtual host is that of --vhost, else "/";
* TLS is used if and only if --ssl is given. -/
inductive ConnectTo (env : UrlM.UEnv) (o : ConnOpts) (file : Option Bytes) : ConnTo → Prop
  | url (u : Bytes) (s : UrlM.UrlSt) (c : ConnTo) : o.url = some u → o.server = none → o.port < 0 → o.username = none → o.password = none →
      o.authfile = none → o.vhost = none → 0 ≤ o.heartbeat → UrlM.parseUrl env (u ++ [0]) = .ok () s →
      ptrStr s.buf s.info.user = some c.user → ptrStr s.buf s.info.password = some c.password → ptrStr s.buf s.info.host = some c.host →
      ptrStr s.buf s.info.vhost = some c.vhost → c.port = s.info.port → c.ssl = s.info.ssl → (o.ssl = true → c.ssl = true) →
      ConnectTo env o file c
  | options (c : ConnTo) : o.url = none → 0 ≤ o.heartbeat → c.ssl = o.ssl → c.vhost = o.vhost.getD (chs "/") →
      ((o.authfile = none ∧ c.user = o.username.getD (chs "guest") ∧ c.password = o.password.getD (chs "guest")) ∨
        (o.authfile ≠ none ∧ o.username = none ∧ o.password = none ∧ GoodToken c.user ∧ GoodToken c.password ∧
          file = some (chs "username:" ++ c.user ++ [10] ++ chs "password:" ++ c.password ++ [10]))) →
      ((o.server = none ∧ c.host = chs "localhost" ∧ c.port = if 0 ≤ o.port then o.port else 5672) ∨
        (∃ h, o.server = some h ∧ (58 : UInt8) ∉ h ∧ c.host = h ∧ c.port = if 0 ≤ o.port then o.port else if o.ssl then 5671 else 5672) ∨
        ∃ text, o.server = some (c.host ++ [58] ++ text) ∧ (58 : UInt8) ∉ c.host ∧ o.port < 0 ∧ PortRead text c.port) →
      ConnectTo env o file c

/-- The deliveries acknowledged. -/
def acksOf : List Act → List UInt64
  | [] => []
  | .ack t :: l => t :: acksOf l
  | _ :: l => acksOf l

/-- The frames and the commands of a run, for examples: F a frame, S a command started, A an acknowledgement. -/
def traceOf : List Act → List Char
  | [] => []
  | .frame _ :: l => 'F' :: traceOf l
  | .spawn _ _ :: l => 'S' :: traceOf l
  | .ack _ :: l => 'A' :: traceOf l
  | _ :: l => traceOf l

end Rmq.ToolsSpec
