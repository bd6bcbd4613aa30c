import Verif.Proofs.Rpc
import Verif.Spec.Session
import Verif.Props.Send
/-!
# C62, C63: the functions that call the server
-/
namespace Rmq

/-! ## C62 -/

/-- C62.  `n` is any of the twenty functions, `p` its method and `q` the method's `-ok`, `vs` the caller's values.  What is sent is the
method's frame on the caller's channel with the caller's values in the protocol's order, and then nothing but heartbeats (or less, if the
call failed in the library).  The function returns the arguments of the `-ok`, or NULL; amqp_get_rpc_reply tells in any case what happened. -/
theorem C62_rpc_function {E : NetEnv} (hT : NoTimeoutSend E) {n c m : String} (hn : (n, c, m) ∈ rpcFunctions) {p q : Proto}
    (hp : p ∈ protocol) (hpc : p.clsName = c) (hpm : p.name = m) (hq : q ∈ protocol) (hqc : q.clsName = c) (hqm : q.name = m ++ "-ok")
    {vs : List Val} (hv : TypedArgs (askedFor p.args) vs) {ch : UInt16} {a a' : App} {v : Option Rec} (ho : OutBuf a.conn)
    (h : callRpc E n ch vs a = .ok v a') :
    ∃ r l, getRpcReply a' = some r ∧ Since a.conn a'.conn l ∧ RequestOut (methodFrame ch p (filled p.args vs)) r.failed (sentBytes l) ∧
      (¬ r.failed → AllArgs Dom.encodable p.args (filled p.args vs)) ∧
      ((∃ args, v = some args ∧ r = .normal q.id args) ∨
       (v = none ∧ ∃ id args, r = .serverException id args ∧ (id = 0x00140028 ∨ id = 0x000A0032)) ∨
       (v = none ∧ ∃ st, r = .libraryException st)) := by
  obtain ⟨h1, h2⟩ := callRpc_eq hn hp hpc hpm hq hqc hqm hv E ch
  rw [h1] at h
  obtain ⟨r, h3, h4, h5⟩ := rpcDecoded_eq E ch p.id q.id _ h
  obtain ⟨h6, l, h7, h8⟩ := simpleRpc_out hT hp h2 ch [q.id] ho h3
  refine ⟨r, l, h4, h7, h8, h6, ?_⟩
  have h9 := simpleRpc_ids h3
  cases r with
  | normal id args =>
    have : id = q.id := by simpa [Reply.expects] using h9
    subst this
    exact Or.inl ⟨args, h5, rfl⟩
  | serverException id args => exact Or.inr (Or.inl ⟨h5, id, args, rfl, h9⟩)
  | libraryException e => exact Or.inr (Or.inr ⟨h5, e, rfl⟩)

/-- C62, the wait for the reply: it is amqp_simple_rpc's (C30, C31), awaiting the `-ok`. -/
theorem C62_is_rpc {E : NetEnv} {n c m : String} (hn : (n, c, m) ∈ rpcFunctions) {p q : Proto}
    (hp : p ∈ protocol) (hpc : p.clsName = c) (hpm : p.name = m) (hq : q ∈ protocol) (hqc : q.clsName = c) (hqm : q.name = m ++ "-ok")
    {vs : List Val} (hv : TypedArgs (askedFor p.args) vs) {ch : UInt16} {a a' : App} {v : Option Rec}
    (h : callRpc E n ch vs a = .ok v a') :
    ∃ r, simpleRpc E ch p.id [q.id] (filled p.args vs) a.conn = .ok r a'.conn ∧ getRpcReply a' = some r := by
  rw [(callRpc_eq hn hp hpc hpm hq hqc hqm hv E ch).1] at h
  obtain ⟨r, h3, h4, _⟩ := rpcDecoded_eq E ch p.id q.id _ h
  exact ⟨r, h3, h4⟩

/-- Every function has its method and its `-ok`. -/
theorem C62_all_functions : ∀ t ∈ rpcFunctions, (∃ p ∈ protocol, p.clsName = t.2.1 ∧ p.name = t.2.2) ∧
    ∃ q ∈ protocol, q.clsName = t.2.1 ∧ q.name = t.2.2 ++ "-ok" := by decide +kernel

/-- amqp_queue_declare(conn, 1, "q", 0, 1, 0, 1, {}): the frame that is sent, and the reply. -/
example : let E := netEnv [] [(0, .sent 99)] [(1, .data [1, 0, 1, 0, 0, 0, 14, 0, 50, 0, 11, 1, 113, 0, 0, 0, 7, 0, 0, 0, 2, 206])] []
    let r := callRpc E "amqp_queue_declare" 1 [.bytes [113], .bool 0, .bool 1, .bool 0, .bool 1, .table []] ⟨demoConn 64, none⟩
    r.val?.map (fun v => v.map fun args => args.map fun x => (x.1, match x.2 with | .u32 n => n | _ => 0)) =
      some (some [(.queue, 0), (.message_count, 7), (.consumer_count, 2)]) ∧
    r.state?.map (fun a => sentBytes a.conn.log) = some [1, 0, 1, 0, 0, 0, 13, 0, 50, 0, 10, 0, 0, 1, 113, 10, 0, 0, 0, 0, 206] := by
  decide +kernel

/-- The caller's values are of the types asked for. -/
example : TypedArgs (askedFor [(.ticket, .short), (.queue, .shortstr), (.passive, .bit), (.durable, .bit), (.exclusive, .bit),
    (.auto_delete, .bit), (.nowait, .bit), (.arguments, .table)]) [.bytes [113], .bool 0, .bool 1, .bool 0, .bool 1, .table []] :=
  ⟨trivial, trivial, trivial, trivial, trivial, trivial, trivial⟩

/-! ## C63 -/

theorem close_entry : ∀ p ∈ protocol, p.name = "close" → (p.clsName = "channel" → p.id = 0x00140028) ∧ (p.clsName = "connection" → p.id = 0x000A0032) ∧
    p.args = [(.reply_code, .short), (.reply_text, .shortstr), (.class_id, .short), (.method_id, .short)] := by decide +kernel

theorem closeOk_entry : ∀ q ∈ protocol, q.name = "close-ok" → (q.clsName = "channel" → q.id = 0x00140029) ∧ (q.clsName = "connection" → q.id = 0x000A0033) := by
  decide +kernel

/-- C63, closing: a code that is not a protocol reply code is refused before anything is sent. -/
theorem C63_close_invalid (E : NetEnv) (ch : UInt16) {code : Int} (hc : code < 0 ∨ 65535 < code) (a : App) :
    channelClose E ch code a = .ok (.libraryException St.INVALID_PARAMETER) a ∧
    connectionClose E code a = .ok (.libraryException St.INVALID_PARAMETER) a := by
  unfold channelClose connectionClose
  rw [if_pos hc, if_pos hc]
  exact ⟨rfl, rfl⟩

theorem close_out {E : NetEnv} (hT : NoTimeoutSend E) {c : String} {p q : Proto} (hp : IsMethod p c "close") (hq : IsMethod q c "close-ok")
    {pid qid : UInt32} (ep : p.id = pid) (eq : q.id = qid) {ch : UInt16} {code : Int} (h0 : 0 ≤ code) (h1 : code ≤ 65535)
    {a a' : App} {r : Reply} (ho : OutBuf a.conn) (h : App.lift (simpleRpc E ch pid [qid] (closeArgs code)) a = .ok r a') :
    ∃ text l, IsDecimal code.toNat text ∧ text.length ≤ 5 ∧ a'.last = a.last ∧ Since a.conn a'.conn l ∧
      RequestOut (methodFrame ch p [(.reply_code, .u16 (UInt16.ofNat code.toNat)), (.reply_text, .bytes text), (.class_id, .u16 0), (.method_id, .u16 0)])
        r.failed (sentBytes l) ∧ r.expects [q.id] := by
  subst ep eq
  have hargs : HasArgs p.args (closeArgs code) := by
    rw [(close_entry p hp.1 hp.2.2).2.2]
    exact .cons trivial (.cons trivial (.cons trivial (.cons trivial .nil)))
  unfold App.lift at h
  cases hs : simpleRpc E ch p.id [q.id] (closeArgs code) a.conn with
  | ub => rw [hs] at h; cases h
  | fuel => rw [hs] at h; cases h
  | err e t => rw [hs] at h; cases h
  | ok r' t =>
    rw [hs] at h
    cases h
    obtain ⟨_, l, h7, h8⟩ := simpleRpc_out hT hp.1 hargs ch [q.id] ho hs
    obtain ⟨d1, d2, _⟩ := decimal_ok code.toNat
    exact ⟨decimal code.toNat, l, d1, d2 (by omega), rfl, h7, h8, simpleRpc_ids hs⟩

/-- C63, closing a channel: channel.close with the code, its decimal notation as text, and zero for class and method; the reply is
channel.close-ok. -/
theorem C63_channel_close {E : NetEnv} (hT : NoTimeoutSend E) {p q : Proto} (hp : IsMethod p "channel" "close") (hq : IsMethod q "channel" "close-ok")
    {ch : UInt16} {code : Int} (h0 : 0 ≤ code) (h1 : code ≤ 65535) {a a' : App} {r : Reply} (ho : OutBuf a.conn)
    (h : channelClose E ch code a = .ok r a') :
    ∃ text l, IsDecimal code.toNat text ∧ text.length ≤ 5 ∧ a'.last = a.last ∧ Since a.conn a'.conn l ∧
      RequestOut (methodFrame ch p [(.reply_code, .u16 (UInt16.ofNat code.toNat)), (.reply_text, .bytes text), (.class_id, .u16 0), (.method_id, .u16 0)])
        r.failed (sentBytes l) ∧ r.expects [q.id] := by
  unfold channelClose at h
  rw [if_neg (by omega)] at h
  exact close_out hT hp hq ((close_entry p hp.1 hp.2.2).1 hp.2.1) ((closeOk_entry q hq.1 hq.2.2).1 hq.2.1) h0 h1 ho h

/-- C63, closing the connection: the same with connection.close, on channel 0. -/
theorem C63_connection_close {E : NetEnv} (hT : NoTimeoutSend E) {p q : Proto} (hp : IsMethod p "connection" "close")
    (hq : IsMethod q "connection" "close-ok") {code : Int} (h0 : 0 ≤ code) (h1 : code ≤ 65535) {a a' : App} {r : Reply} (ho : OutBuf a.conn)
    (h : connectionClose E code a = .ok r a') :
    ∃ text l, IsDecimal code.toNat text ∧ text.length ≤ 5 ∧ a'.last = a.last ∧ Since a.conn a'.conn l ∧
      RequestOut (methodFrame 0 p [(.reply_code, .u16 (UInt16.ofNat code.toNat)), (.reply_text, .bytes text), (.class_id, .u16 0), (.method_id, .u16 0)])
        r.failed (sentBytes l) ∧ r.expects [q.id] := by
  unfold connectionClose at h
  rw [if_neg (by omega)] at h
  exact close_out hT hp hq ((close_entry p hp.1 hp.2.2).2.1 hp.2.1) ((closeOk_entry q hq.1 hq.2.2).2 hq.2.1) h0 h1 ho h

/-- What a call that only sends leaves on the wire: all of the method, or part of it if the call failed. -/
def MethodOut (ch : UInt16) (p : Proto) (args : Rec) (a : App) : Res App Unit → Prop
  | .ok () a' => a'.last = a.last ∧ ∃ l, Since a.conn a'.conn l ∧ sentBytes l = methodFrame ch p args
  | .err _ a' => a'.last = a.last ∧ ∃ l, Since a.conn a'.conn l ∧ sentBytes l <+: methodFrame ch p args
  | _ => True

theorem lift_out {E : NetEnv} {p : Proto} {args : Rec} (hp : p ∈ protocol) (hr : HasArgs p.args args) (ch : UInt16) {a : App}
    (ho : OutBuf a.conn) : MethodOut ch p args a (App.lift (sendMethod E ch p.id args SF_NONE TIME_INF) a) := by
  have h1 := sendMethod_out (E := E) hp hr ch SF_NONE TIME_INF ho
  unfold App.lift
  revert h1
  cases sendMethod E ch p.id args SF_NONE TIME_INF a.conn with
  | ub => exact fun _ => trivial
  | fuel => exact fun _ => trivial
  | ok u t => rintro ⟨_, _, h⟩; exact ⟨rfl, h⟩
  | err e t => exact fun h => ⟨rfl, h⟩

theorem ack_entry : ∀ p ∈ protocol, p.clsName = "basic" →
    (p.name = "ack" → p.id = 0x003C0050 ∧ p.args = [(.delivery_tag, .longlong), (.multiple, .bit)]) ∧
    (p.name = "reject" → p.id = 0x003C005A ∧ p.args = [(.delivery_tag, .longlong), (.requeue, .bit)]) ∧
    (p.name = "nack" → p.id = 0x003C0078 ∧ p.args = [(.delivery_tag, .longlong), (.multiple, .bit), (.requeue, .bit)]) ∧
    (p.name = "get" → p.id = 0x003C0046 ∧ p.args = [(.ticket, .short), (.queue, .shortstr), (.no_ack, .bit)]) := by decide +kernel

/-- C63, acknowledging. -/
theorem C63_ack {E : NetEnv} {p : Proto} (hp : IsMethod p "basic" "ack") (ch : UInt16) (tag : UInt64) (multiple : Int32) {a : App}
    (ho : OutBuf a.conn) :
    MethodOut ch p [(.delivery_tag, .u64 tag), (.multiple, .bool multiple)] a (basicAck E ch tag multiple a) := by
  obtain ⟨e1, e2⟩ := (ack_entry p hp.1 hp.2.1).1 hp.2.2
  unfold basicAck
  rw [← e1]
  exact lift_out hp.1 (by rw [e2]; exact .cons trivial (.cons trivial .nil)) ch ho

/-- C63, rejecting. -/
theorem C63_reject {E : NetEnv} {p : Proto} (hp : IsMethod p "basic" "reject") (ch : UInt16) (tag : UInt64) (requeue : Int32) {a : App}
    (ho : OutBuf a.conn) :
    MethodOut ch p [(.delivery_tag, .u64 tag), (.requeue, .bool requeue)] a (basicReject E ch tag requeue a) := by
  obtain ⟨e1, e2⟩ := (ack_entry p hp.1 hp.2.1).2.1 hp.2.2
  unfold basicReject
  rw [← e1]
  exact lift_out hp.1 (by rw [e2]; exact .cons trivial (.cons trivial .nil)) ch ho

/-- C63, rejecting several. -/
theorem C63_nack {E : NetEnv} {p : Proto} (hp : IsMethod p "basic" "nack") (ch : UInt16) (tag : UInt64) (multiple requeue : Int32) {a : App}
    (ho : OutBuf a.conn) :
    MethodOut ch p [(.delivery_tag, .u64 tag), (.multiple, .bool multiple), (.requeue, .bool requeue)] a (basicNack E ch tag multiple requeue a) := by
  obtain ⟨e1, e2⟩ := (ack_entry p hp.1 hp.2.1).2.2.1 hp.2.2
  unfold basicNack
  rw [← e1]
  exact lift_out hp.1 (by rw [e2]; exact .cons trivial (.cons trivial (.cons trivial .nil))) ch ho

theorem get_entry : ∀ q ∈ protocol, q.clsName = "basic" → (q.name = "get-ok" → q.id = 0x003C0047) ∧ (q.name = "get-empty" → q.id = 0x003C0048) := by
  decide +kernel

/-- C63, asking for one message: the method with the caller's values, answered by get-ok or get-empty; amqp_get_rpc_reply repeats the
result. -/
theorem C63_get {E : NetEnv} (hT : NoTimeoutSend E) {p q q' : Proto} (hp : IsMethod p "basic" "get") (hq : IsMethod q "basic" "get-ok")
    (hq' : IsMethod q' "basic" "get-empty") {ch : UInt16} {queue : Bytes} {noAck : Int32} {a a' : App} {r : Reply} (ho : OutBuf a.conn)
    (h : basicGet E ch queue noAck a = .ok r a') :
    getRpcReply a' = some r ∧ r.expects [q.id, q'.id] ∧ ∃ l, Since a.conn a'.conn l ∧
      RequestOut (methodFrame ch p [(.ticket, .u16 0), (.queue, .bytes queue), (.no_ack, .bool noAck)]) r.failed (sentBytes l) := by
  obtain ⟨e1, e2⟩ := (ack_entry p hp.1 hp.2.1).2.2.2 hp.2.2
  have e3 := (get_entry q hq.1 hq.2.1).1 hq.2.2
  have e4 := (get_entry q' hq'.1 hq'.2.1).2 hq'.2.2
  unfold basicGet at h
  rw [← e1, ← e3, ← e4] at h
  revert h
  cases hs : simpleRpc E ch p.id [q.id, q'.id] [(.ticket, .u16 0), (.queue, .bytes queue), (.no_ack, .bool noAck)] a.conn with
  | ub => intro h; cases h
  | fuel => intro h; cases h
  | err e t => intro h; cases h
  | ok r' t =>
    intro h
    cases h
    obtain ⟨_, l, h7, h8⟩ := simpleRpc_out hT hp.1 (by rw [e2]; exact .cons trivial (.cons trivial (.cons trivial .nil))) ch _ ho hs
    exact ⟨rfl, simpleRpc_ids hs, l, h7, h8⟩

/-- amqp_basic_nack(conn, 3, 7, 1, 0), and amqp_channel_close(conn, 3, 200). -/
example : let E := netEnv [] [(0, .sent 99)] [(1, .data [1, 0, 3, 0, 0, 0, 4, 0, 20, 0, 41, 206])] []
    ((basicNack E 3 7 1 0 ⟨demoConn 64, none⟩).state?.map fun a => sentBytes a.conn.log) =
      some [1, 0, 3, 0, 0, 0, 13, 0, 60, 0, 120, 0, 0, 0, 0, 0, 0, 0, 7, 1, 206] ∧
    ((channelClose E 3 200 ⟨demoConn 64, none⟩).state?.map fun a => sentBytes a.conn.log) =
      some [1, 0, 3, 0, 0, 0, 14, 0, 20, 0, 40, 0, 200, 3, 50, 48, 48, 0, 0, 0, 0, 206] ∧
    ((channelClose E 3 200 ⟨demoConn 64, none⟩).val?.map fun r => match r with | .normal id _ => id | _ => 0) = some 0x00140029 := by
  decide +kernel

end Rmq
