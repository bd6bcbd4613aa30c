import Verif.Proofs.ToolsMain
import Verif.Props.Tools
import Verif.Props.Login
/-!
# C82: a tool's whole session on the wire; C83: amqp-declare-queue and amqp-delete-queue
-/
namespace Rmq
open ToolsM ToolsSpec

section
variable {S : Shell} (hT : NoTimeoutSend S.net) {st : Start} (hM : MemcmpExact st.memcmp) {env : UrlM.UEnv} {o : ConnOpts} {t : TlsOpts} {file : Option Bytes}
  {s : Conn} (hst : st.conn = some s) (hF : Fresh s) {p p' : Proc} {n : Nat}
include hT hM hst hF

/-- amqp-publish that exits with a status of its own: the status is 0; it logged in where and as whom the options say, published exactly its
messages on channel 1, and closed the channel and the connection, each answered; nothing else was sent but heartbeats. -/
theorem C82_publish {po : PubOpts} {stdin : Bytes} (h : publishTool S st env o t file po stdin p = .ok n p') :
    n = 0 ∧ ∃ l, Session S st env o t file s p p' l ∧ PublishRun po stdin l := by
  unfold publishTool at h
  split at h
  · cases h
  · have hQ : ∀ q, Ext q (publishBodyM S po stdin q) (fun l a => a = 0 ∧ PublishRun po stdin l) (fun _ => True) := by
      intro q
      cases hr : publishMain S po stdin q with
      | ok a q' =>
        obtain ⟨l, h1, h2⟩ := C71_publish_partial S po stdin q q' hr
        obtain ⟨l', h3, h4⟩ := C71_props S po stdin q q' hr
        have : l' = l := List.append_cancel_left (h3.symm.trans h1)
        subst this
        unfold publishBodyM
        rw [M.bind_def, hr]
        refine ⟨l', h1, rfl, ?_, fun ex rk fl pr b hm => ?_⟩
        · rcases h2 with ⟨b, a1, a2, a3⟩ | ⟨b, a1, a2, a3⟩ | h2 | h2
          · exact Or.inl ⟨b, a1, by rw [a2]; exact a3⟩
          · exact Or.inl ⟨b, a1, by rw [a2]; exact a3⟩
          · exact Or.inr (Or.inl h2)
          · exact Or.inr (Or.inr h2)
        · obtain ⟨b1, b2, _, b3⟩ := h4 ex rk fl pr b hm
          exact ⟨b1, b2, b3⟩
      | err e q' =>
        have := publishMain_ext S po stdin q
        rw [hr] at this
        unfold publishBodyM
        rw [M.bind_def, hr]
        exact ⟨this.1, this.2.choose, this.2.choose_spec.1, trivial⟩
      | ub => unfold publishBodyM; rw [M.bind_def, hr]; trivial
      | fuel => unfold publishBodyM; rw [M.bind_def, hr]; trivial
    obtain ⟨l, h1, h2, h3⟩ := connected_session hT hM (fun fm => publishBodyM_wired S hT fm po stdin) hst hF hQ h
    exact ⟨h2, l, h1, h3⟩

/-- amqp-get: status 0 with a message, copied to the standard output; status 2 without. -/
theorem C82_get {queue : Option Bytes} (h : getMain S st env o t file queue p = .ok n p') :
    ∃ q copy, queue = some q ∧ Session S st env o t file s p p' (.get q :: copy) ∧ ((n = 0 ∧ Copied 1 copy) ∨ (n = 2 ∧ copy = [])) := by
  unfold getMain at h
  cases queue with
  | none => cases h
  | some q =>
    have hQ : ∀ r, Ext r (getBody S q r) (fun l a => ∃ copy, l = .get q :: copy ∧ ((a = 0 ∧ Copied 1 copy) ∨ (a = 2 ∧ copy = []))) (fun _ => True) := by
      intro r
      refine Ext.bind (doGet_ext S q r) ?_ (fun _ _ => trivial)
      rintro got l r' ⟨copy, rfl, h2⟩ _
      refine Ext.pure _ ⟨copy, by simp, ?_⟩
      cases got
      · exact Or.inr ⟨rfl, h2⟩
      · exact Or.inl ⟨rfl, h2⟩
    obtain ⟨l, h1, copy, rfl, h3⟩ := connected_session hT hM (fun fm => getBody_wired S hT fm q) hst hF hQ h
    exact ⟨q, copy, rfl, h1, h3⟩

/-- amqp-consume (that ends: with a --count): the queue set up as the options say, then consumed in rounds. -/
theorem C82_consume {queue exchange routingKey : Option Bytes} {declare exclusive noAck : Bool} {count prefetch : Int} {argv : List Bytes}
    (h : consumeTool S st env o t file queue exchange routingKey declare exclusive noAck count prefetch argv p = .ok n p') :
    n = 0 ∧ ∃ setup name rest bs, Session S st env o t file s p p' (setup ++ (startCalls name noAck count prefetch ++ rest)) ∧
      SetUp queue exchange routingKey declare exclusive setup name ∧ Rounds noAck argv bs rest ∧ (bs.length : Int) = count := by
  unfold consumeTool at h
  split at h
  · cases h
  · have hQ : ∀ r, Ext r (consumeBody S queue exchange routingKey declare exclusive noAck count prefetch argv r) (fun l a => a = 0 ∧
        ∃ setup name rest bs, l = setup ++ (startCalls name noAck count prefetch ++ rest) ∧ SetUp queue exchange routingKey declare exclusive setup name ∧
          Rounds noAck argv bs rest ∧ (bs.length : Int) = count) (fun _ => True) := by
      intro r
      refine Ext.bind (setupQueue_ext S queue exchange routingKey declare exclusive r) ?_ (fun _ _ => trivial)
      intro name setup r' hs _
      refine Ext.bind (doConsume_ext S name noAck count prefetch argv r') ?_ (fun _ _ => trivial)
      rintro _ l r'' ⟨rest, bs, rfl, h2, _, h3⟩ _
      exact Ext.pure _ ⟨rfl, setup, name, rest, bs, by simp, hs, h2, h3⟩
    obtain ⟨l, h1, h2, setup, name, rest, bs, rfl, h3, h4, h5⟩ := connected_session hT hM (fun fm => consumeBody_wired S hT fm _ _ _ _ _ _ _ _ _) hst hF hQ h
    exact ⟨h2, setup, name, rest, bs, h1, h3, h4, h5⟩

/-- amqp-declare-queue that exits with a status of its own: the status is 0.  It logged in where and as whom the options say, opened channel 1, had
the queue declared with exactly the options given, printed the server's name for it (up to a NUL) and a newline and nothing else, and closed
the channel and the connection — each request answered before the next. -/
theorem C83_declare {queue : Option Bytes} {durable : Bool} (h : declareMain S st env o t file queue durable p = .ok n p') :
    n = 0 ∧ ∃ q c s1 s2 s3 s4 a1 r a2 a3 name, queue = some q ∧ ConnectTo env o file c ∧ LoggedIn c.user c.password c.vhost o.heartbeat s s1 ∧
      Exchange S.net 1 "channel" "open" [(.out_of_band, .bytes [])] a1 s1 s2 ∧
      Exchange S.net 1 "queue" "declare" [(.ticket, .u16 0), (.queue, .bytes q), (.passive, .bool 0), (.durable, .bool (if durable then 1 else 0)),
        (.exclusive, .bool 0), (.auto_delete, .bool 0), (.nowait, .bool 0), (.arguments, .table [])] r s2 s3 ∧
      Exchange S.net 1 "channel" "close" close200 a2 s3 s4 ∧ Exchange S.net 0 "connection" "close" close200 a3 s4 p'.app.conn ∧
      r.get? .queue = some (.bytes name) ∧
      p'.acts = p.acts ++ setUpActs st t c ++ [.call "amqp_channel_open" [],
        .call "amqp_queue_declare" [.bytes q, .bool 0, .bool (if durable then 1 else 0), .bool 0, .bool 0, .table []],
        .print (name.takeWhile (· ≠ 0) ++ [10])] := by
  unfold declareMain at h
  cases queue with
  | none => cases h
  | some q =>
    obtain ⟨c, r1, r2, s1, s4, a1, a2, a3, k1, _, _, k4, k5, k6, k7, k8, k9, k10, k11⟩ := connected_ok hT hM (fun fm => declareBody_wired S hT fm q durable) hst hF h
    unfold declareBody at k8
    obtain ⟨v, r3, e1, k8⟩ := M.bind_ok k8
    obtain ⟨m1, m2, r, m3, m4⟩ := callOrDie_exchange S hT (c := "queue") (m := "declare") (by decide)
      (p := ⟨50, 10, "queue", "declare", [(.ticket, .short), (.queue, .shortstr), (.passive, .bit), (.durable, .bit), (.exclusive, .bit), (.auto_delete, .bit),
        (.nowait, .bit), (.arguments, .table)], false⟩)
      (q := ⟨50, 11, "queue", "declare-ok", [(.queue, .shortstr), (.message_count, .long), (.consumer_count, .long)], false⟩)
      ⟨by decide, rfl, rfl⟩ ⟨by decide, rfl, rfl⟩ (by decide)
      (vs := [.bytes q, .bool 0, .bool (if durable then 1 else 0), .bool 0, .bool 0, .table []]) ⟨trivial, trivial, trivial, trivial, trivial, trivial, trivial⟩ k7 e1
    subst m3
    dsimp only at k8
    obtain ⟨name, hn⟩ : ∃ name, r.get? .queue = some (.bytes name) := by
      cases hg : r.get? .queue with
      | none => rw [hg] at k8; cases k8
      | some v => cases v <;> first | exact ⟨_, rfl⟩ | (rw [hg] at k8; cases k8)
    rw [hn] at k8
    cases k8
    refine ⟨rfl, q, c, s1, _, _, s4, a1, r, a2, a3, name, rfl, k1, k5, k6, m4, k10, k11, hn, ?_⟩
    rw [k9]
    simp [Proc.push, m1, k4, cstring]

/-- amqp-delete-queue, likewise: the text printed is the number of messages the server says were deleted. -/
theorem C83_delete {queue : Option Bytes} {ifUnused ifEmpty : Bool} (h : deleteMain S st env o t file queue ifUnused ifEmpty p = .ok n p') :
    n = 0 ∧ ∃ q c s1 s2 s3 s4 a1 r a2 a3 count text, queue = some q ∧ q ≠ [] ∧ ConnectTo env o file c ∧ LoggedIn c.user c.password c.vhost o.heartbeat s s1 ∧
      Exchange S.net 1 "channel" "open" [(.out_of_band, .bytes [])] a1 s1 s2 ∧
      Exchange S.net 1 "queue" "delete" [(.ticket, .u16 0), (.queue, .bytes q), (.if_unused, .bool (if ifUnused then 1 else 0)),
        (.if_empty, .bool (if ifEmpty then 1 else 0)), (.nowait, .bool 0)] r s2 s3 ∧
      Exchange S.net 1 "channel" "close" close200 a2 s3 s4 ∧ Exchange S.net 0 "connection" "close" close200 a3 s4 p'.app.conn ∧
      r.get? .message_count = some (.u32 count) ∧ IsDecimal count.toNat text ∧ (count.toNat ≠ 0 → text.head? ≠ some 48) ∧
      p'.acts = p.acts ++ setUpActs st t c ++ [.call "amqp_channel_open" [],
        .call "amqp_queue_delete" [.bytes q, .bool (if ifUnused then 1 else 0), .bool (if ifEmpty then 1 else 0)],
        .print (text ++ [10])] := by
  unfold deleteMain at h
  cases queue with
  | none => cases h
  | some q =>
    dsimp only at h
    split at h
    · cases h
    next hq =>
    obtain ⟨c, r1, r2, s1, s4, a1, a2, a3, k1, _, _, k4, k5, k6, k7, k8, k9, k10, k11⟩ := connected_ok hT hM (fun fm => deleteBody_wired S hT fm q ifUnused ifEmpty) hst hF h
    unfold deleteBody at k8
    obtain ⟨v, r3, e1, k8⟩ := M.bind_ok k8
    obtain ⟨m1, m2, r, m3, m4⟩ := callOrDie_exchange S hT (c := "queue") (m := "delete") (by decide)
      (p := ⟨50, 40, "queue", "delete", [(.ticket, .short), (.queue, .shortstr), (.if_unused, .bit), (.if_empty, .bit), (.nowait, .bit)], false⟩)
      (q := ⟨50, 41, "queue", "delete-ok", [(.message_count, .long)], false⟩)
      ⟨by decide, rfl, rfl⟩ ⟨by decide, rfl, rfl⟩ (by decide)
      (vs := [.bytes q, .bool (if ifUnused then 1 else 0), .bool (if ifEmpty then 1 else 0)]) ⟨trivial, trivial, trivial, trivial⟩ k7 e1
    subst m3
    dsimp only at k8
    obtain ⟨cnt, hn⟩ : ∃ cnt, r.get? .message_count = some (.u32 cnt) := by
      cases hg : r.get? .message_count with
      | none => rw [hg] at k8; cases k8
      | some v => cases v <;> first | exact ⟨_, rfl⟩ | (rw [hg] at k8; cases k8)
    rw [hn] at k8
    cases k8
    obtain ⟨d1, _, d3⟩ := decimal_ok cnt.toNat
    refine ⟨rfl, q, c, s1, _, _, s4, a1, r, a2, a3, cnt, _, rfl, hq, k1, k5, k6, m4, k10, k11, hn, d1, d3, ?_⟩
    rw [k9]
    simp [Proc.push, m1, k4]

/-- amqp-declare-queue that dies has printed nothing — or the name of the queue the server says it declared: after that only the closing can
fail. -/
theorem C83_exit_declare {queue : Option Bytes} {durable : Bool} {e : Int} (h : declareMain S st env o t file queue durable p = .err e p') :
    e = 1 ∧ (printedOf p'.acts = printedOf p.acts ∨ ∃ q s2 s3 r name, queue = some q ∧
      Exchange S.net 1 "queue" "declare" [(.ticket, .u16 0), (.queue, .bytes q), (.passive, .bool 0), (.durable, .bool (if durable then 1 else 0)),
        (.exclusive, .bool 0), (.auto_delete, .bool 0), (.nowait, .bool 0), (.arguments, .table [])] r s2 s3 ∧
      r.get? .queue = some (.bytes name) ∧ printedOf p'.acts = printedOf p.acts ++ (name.takeWhile (· ≠ 0) ++ [10])) := by
  refine ⟨declareMain_dies S st env o t file queue durable _ _ _ h, ?_⟩
  unfold declareMain at h
  cases queue with
  | none => cases h; exact Or.inl rfl
  | some q =>
    rcases connected_err hT hM hst hF h with h1 | ⟨r1, fm, k7, h1, h2⟩
    · exact Or.inl h1
    rcases h2 with h2 | ⟨a, r2, h2, h3⟩
    · left
      unfold declareBody at h2
      rw [M.bind_def] at h2
      have hs := callOrDie_silent S "amqp_queue_declare" [.bytes q, .bool 0, .bool (if durable then 1 else 0), .bool 0, .bool 0, .table []] r1
      revert h2 hs
      cases callOrDie S "amqp_queue_declare" [.bytes q, .bool 0, .bool (if durable then 1 else 0), .bool 0, .bool 0, .table []] r1 with
      | ub => intro h; cases h
      | fuel => intro h; cases h
      | err e1 q1 => intro h hs; cases h; exact hs.trans h1
      | ok v q1 =>
        intro h2 _
        exfalso
        cases v with
        | none => cases h2
        | some r =>
          dsimp only at h2
          cases hg : r.get? .queue with
          | none => rw [hg] at h2; cases h2
          | some v => rw [hg] at h2; cases v <;> cases h2
    · right
      unfold declareBody at h2
      obtain ⟨v, r3, e1, k8⟩ := M.bind_ok h2
      have hs := callOrDie_silent S "amqp_queue_declare" [.bytes q, .bool 0, .bool (if durable then 1 else 0), .bool 0, .bool 0, .table []] r1
      rw [e1] at hs
      obtain ⟨m1, m2, r, m3, m4⟩ := callOrDie_exchange S hT (c := "queue") (m := "declare") (by decide)
        (p := ⟨50, 10, "queue", "declare", [(.ticket, .short), (.queue, .shortstr), (.passive, .bit), (.durable, .bit), (.exclusive, .bit), (.auto_delete, .bit),
          (.nowait, .bit), (.arguments, .table)], false⟩)
        (q := ⟨50, 11, "queue", "declare-ok", [(.queue, .shortstr), (.message_count, .long), (.consumer_count, .long)], false⟩)
        ⟨by decide, rfl, rfl⟩ ⟨by decide, rfl, rfl⟩ (by decide)
        (vs := [.bytes q, .bool 0, .bool (if durable then 1 else 0), .bool 0, .bool 0, .table []]) ⟨trivial, trivial, trivial, trivial, trivial, trivial, trivial⟩ k7 e1
      subst m3
      dsimp only at k8
      obtain ⟨name, hn⟩ : ∃ name, r.get? .queue = some (.bytes name) := by
        cases hg : r.get? .queue with
        | none => rw [hg] at k8; cases k8
        | some v => cases v <;> first | exact ⟨_, rfl⟩ | (rw [hg] at k8; cases k8)
      rw [hn] at k8
      cases k8
      refine ⟨q, _, _, r, name, rfl, m4, hn, ?_⟩
      rw [h3]
      show printedOf (r3.acts ++ [_]) = _
      rw [printedOf_append, hs, h1]
      simp [printedOf, cstring]

/-- amqp-delete-queue, likewise. -/
theorem C83_exit_delete {queue : Option Bytes} {ifUnused ifEmpty : Bool} {e : Int} (h : deleteMain S st env o t file queue ifUnused ifEmpty p = .err e p') :
    e = 1 ∧ (printedOf p'.acts = printedOf p.acts ∨ ∃ q s2 s3 r count text, queue = some q ∧
      Exchange S.net 1 "queue" "delete" [(.ticket, .u16 0), (.queue, .bytes q), (.if_unused, .bool (if ifUnused then 1 else 0)),
        (.if_empty, .bool (if ifEmpty then 1 else 0)), (.nowait, .bool 0)] r s2 s3 ∧
      r.get? .message_count = some (.u32 count) ∧ IsDecimal count.toNat text ∧ printedOf p'.acts = printedOf p.acts ++ (text ++ [10])) := by
  refine ⟨deleteMain_dies S st env o t file queue ifUnused ifEmpty _ _ _ h, ?_⟩
  unfold deleteMain at h
  cases queue with
  | none => cases h; exact Or.inl rfl
  | some q =>
    dsimp only at h
    split at h
    · cases h; exact Or.inl rfl
    rcases connected_err hT hM hst hF h with h1 | ⟨r1, fm, k7, h1, h2⟩
    · exact Or.inl h1
    rcases h2 with h2 | ⟨a, r2, h2, h3⟩
    · left
      unfold deleteBody at h2
      rw [M.bind_def] at h2
      have hs := callOrDie_silent S "amqp_queue_delete" [.bytes q, .bool (if ifUnused then 1 else 0), .bool (if ifEmpty then 1 else 0)] r1
      revert h2 hs
      cases callOrDie S "amqp_queue_delete" [.bytes q, .bool (if ifUnused then 1 else 0), .bool (if ifEmpty then 1 else 0)] r1 with
      | ub => intro h; cases h
      | fuel => intro h; cases h
      | err e1 q1 => intro h hs; cases h; exact hs.trans h1
      | ok v q1 =>
        intro h2 _
        exfalso
        cases v with
        | none => cases h2
        | some r =>
          dsimp only at h2
          cases hg : r.get? .message_count with
          | none => rw [hg] at h2; cases h2
          | some v => rw [hg] at h2; cases v <;> cases h2
    · right
      unfold deleteBody at h2
      obtain ⟨v, r3, e1, k8⟩ := M.bind_ok h2
      have hs := callOrDie_silent S "amqp_queue_delete" [.bytes q, .bool (if ifUnused then 1 else 0), .bool (if ifEmpty then 1 else 0)] r1
      rw [e1] at hs
      obtain ⟨m1, m2, r, m3, m4⟩ := callOrDie_exchange S hT (c := "queue") (m := "delete") (by decide)
        (p := ⟨50, 40, "queue", "delete", [(.ticket, .short), (.queue, .shortstr), (.if_unused, .bit), (.if_empty, .bit), (.nowait, .bit)], false⟩)
        (q := ⟨50, 41, "queue", "delete-ok", [(.message_count, .long)], false⟩)
        ⟨by decide, rfl, rfl⟩ ⟨by decide, rfl, rfl⟩ (by decide)
        (vs := [.bytes q, .bool (if ifUnused then 1 else 0), .bool (if ifEmpty then 1 else 0)]) ⟨trivial, trivial, trivial, trivial⟩ k7 e1
      subst m3
      dsimp only at k8
      obtain ⟨cnt, hn⟩ : ∃ cnt, r.get? .message_count = some (.u32 cnt) := by
        cases hg : r.get? .message_count with
        | none => rw [hg] at k8; cases k8
        | some v => cases v <;> first | exact ⟨_, rfl⟩ | (rw [hg] at k8; cases k8)
      rw [hn] at k8
      cases k8
      refine ⟨q, _, _, r, cnt, _, rfl, m4, hn, (decimal_ok cnt.toNat).1, ?_⟩
      rw [h3]
      show printedOf (r3.acts ++ [_]) = _
      rw [printedOf_append, hs, h1]
      simp [printedOf]

end

/-- Whatever goes wrong, a tool that exits by itself other than from its main function exits with status 1. -/
theorem C82_exit (S : Shell) (st : Start) (env : UrlM.UEnv) (o : ConnOpts) (t : TlsOpts) (file : Option Bytes) (p p' : Proc) (e : Int) :
    (∀ po stdin, publishTool S st env o t file po stdin p = .err e p' → e = 1) ∧
    (∀ queue, getMain S st env o t file queue p = .err e p' → e = 1) ∧
    (∀ queue ex rk declare exclusive noAck count prefetch argv,
      consumeTool S st env o t file queue ex rk declare exclusive noAck count prefetch argv p = .err e p' → e = 1) := by
  refine ⟨fun po stdin h => ?_, fun queue h => ?_, fun queue ex rk declare exclusive noAck count prefetch argv h => ?_⟩
  · unfold publishTool at h
    split at h
    · cases h; rfl
    · exact connected_dies S st env o t file (.bind (.of_ext (publishMain_ext S po stdin)) fun _ => .pure _) _ _ _ h
  · unfold getMain at h
    cases queue with
    | none => cases h; rfl
    | some q => exact connected_dies S st env o t file (.bind (.of_ext (doGet_ext S q)) fun _ => .pure _) _ _ _ h
  · unfold consumeTool at h
    split at h
    · cases h; rfl
    · exact connected_dies S st env o t file (.bind (.of_ext (setupQueue_ext S queue ex rk declare exclusive)) fun _ =>
        .bind (.of_ext (doConsume_ext S _ noAck count prefetch argv)) fun _ => .pure _) _ _ _ h

/-- A finding, for all options and files: whether the CA certificate and the client key could be loaded makes no difference.  A tool that gets
connected gets connected likewise, in the same state, when either is refused. -/
theorem C82_tls_ignored (S : Shell) (st : Start) (o : ConnOpts) (t : TlsOpts) (c : ConnTo) (p p' : Proc) (cacert : Bytes → Int) (key : Option Bytes → Bytes → Int)
    (h : makeConnection S st o t c p = .ok () p') :
    ∃ p'', makeConnection S { st with cacert := cacert, key := key } o t c p = .ok () p'' ∧ p''.app = p'.app := by
  unfold makeConnection at h
  obtain ⟨_, q1, h1, h⟩ := M.bind_ok h
  obtain ⟨_, q2, h2, h⟩ := M.bind_ok h
  have h1' : newStep { st with cacert := cacert, key := key } c.ssl p = .ok () q1 := h1
  obtain ⟨r2, h3, h4⟩ := tlsStep_total { st with cacert := cacert, key := key } t c.ssl q1
  have h5 : q2.app = q1.app := (tlsStep_ok h2).1
  have hrest : OnApp (do connectStep st c; loginStep S st o c; let _ ← callOrDie S "amqp_channel_open" []; pure ()) :=
    .bind (connectStep_onApp st c) fun _ => .bind (loginStep_onApp S st o c) fun _ => .bind (callOrDie_onApp S _ _) fun _ => .pure _
  obtain ⟨p'', h6, h7⟩ := hrest q2 r2 () p' (h5.trans h4.symm) h
  refine ⟨p'', ?_, h7⟩
  unfold makeConnection
  rw [M.bind_def, h1']
  dsimp only
  rw [M.bind_def, h3]
  exact h6

/-! ### A run, whole: the theorems' hypotheses hold of it -/

def chanOpenOk : Bytes := [1, 0, 1, 0, 0, 0, 8, 0, 20, 0, 11, 0, 0, 0, 0, 206]
def declareOk : Bytes := [1, 0, 1, 0, 0, 0, 14, 0, 50, 0, 11, 1, 113, 0, 0, 0, 5, 0, 0, 0, 0, 206]
def chanCloseOk : Bytes := [1, 0, 1, 0, 0, 0, 4, 0, 20, 0, 41, 206]
def connCloseOk : Bytes := [1, 0, 0, 0, 0, 0, 4, 0, 10, 0, 51, 206]
def sessShell (l : List (Nat × Bytes)) : Shell :=
  { demoShell [] [] .signalled with net := { loginEnv (l.map fun x => (x.1, .data x.2)) with send := fun _ b => .sent b.length } }
def sessStart : Start := ⟨some loginConn, true, fun _ => -1, fun _ _ => 0, fun _ _ => 0, ⟨[49], [50]⟩, eqMemcmp, fun _ => 0⟩
def sessReplies : List (Nat × Bytes) :=
  [(4, startBytes "PLAIN"), (10, tuneBytes), (15, openOkBytes), (19, chanOpenOk), (22, declareOk), (25, chanCloseOk), (28, connCloseOk)]

example : MemcmpExact sessStart.memcmp := eqMemcmp_exact
example : Fresh loginConn := by unfold Fresh OutReady; decide +kernel
example : NoTimeoutSend (sessShell sessReplies).net := by intro t b n h; cases h
example : let r := declareMain (sessShell sessReplies) sessStart ⟨127, true⟩ {} ⟨[99], none, none⟩ none (some [113]) true demoProc
    r.val? = some 0 ∧ r.state?.map (fun p => printedOf p.acts) = some [113, 10] := by decide +kernel
/-- The server closes the connection instead: status 1 and nothing printed. -/
example : let r := declareMain (sessShell (sessReplies.take 3)) sessStart ⟨127, true⟩ {} ⟨[99], none, none⟩ none (some [113]) true demoProc
    r.errCode? = some 1 ∧ r.state?.map (fun p => printedOf p.acts) = some [] := by decide +kernel

end Rmq
