import Verif.Proofs.FrameSafe
import Verif.Proofs.FrameOut
/-!
# Frames: C16–C22
-/
namespace Rmq

/-- A host with memory to spare and cleared pool pages. -/
def sampleEnv : PEnv := ⟨false, fun _ => true, fun _ _ => 0⟩
/-- A receiver in the steady state. -/
def steady (fm : Nat) : PState := (newParser fm).idle

/-- `steady` is reached on every new connection by the frame exchange of the handshake, e.g. after a protocol header. -/
theorem steady_reached (fm : Nat) : ∃ s, Live sampleEnv s ∧ s.mode = .idle ∧ s.frameMax = fm := by
  have h : handleInput sampleEnv (newParser fm) [65, 77, 81, 80, 0, 0, 9, 1] =
      .ok (8, some ⟨0, .protocolHeader 0 0 9 1⟩) { newParser fm with hdr := [65, 77, 81, 80, 0, 0, 9, 1], off := 8 }.idle := rfl
  exact ⟨_, .call (.new fm) h, rfl, rfl⟩

/-! ## C16 -/

/-- C16 (layout): serialising a frame into a buffer it fits in gives type octet, channel, payload size, payload and end octet, and
nothing is written outside the buffer. -/
theorem C16_frame_wire_layout {p q : Payload} {ty : UInt8} {bs : Bytes} (hW : Wire p ty bs q) (be : Bool) (ch : UInt16)
    (buffer : Bytes) (hfit : bs.length + 8 ≤ buffer.length) (hsz : bs.length < 2 ^ 32) :
    ∃ buffer', frameToBytes be buffer buffer.length ⟨ch, p⟩ = .ok (rawFrame ty ch bs FRAME_END) buffer' ∧
      buffer'.length = buffer.length :=
  frameToBytes_wire hW be ch buffer hfit hsz

/-- C16 (round trip): the bytes the sender produced, whatever follows them, are received as exactly one frame with the same
channel and contents; the receiver consumes exactly those bytes and is ready for the next frame.  Sender and receiver may have
different byte orders. -/
theorem C16_frame_round_trip {p q : Payload} {ty : UInt8} {bs : Bytes} (hW : Wire p ty bs q) (be : Bool) (ch : UInt16)
    (buffer sent buffer' : Bytes) (hfit : bs.length + 8 ≤ buffer.length) (hsz : bs.length ≤ 2 ^ 30)
    (hsend : frameToBytes be buffer buffer.length ⟨ch, p⟩ = .ok sent buffer')
    (E : PEnv) (hmem : ∀ k, E.alloc k = true) (s : PState) (hs : Live E s) (hidle : s.mode = .idle)
    (hmax : bs.length + 8 ≤ s.frameMax) (rest : Bytes) :
    ∃ s', handleInput E s (sent ++ rest) = .ok (sent.length, some ⟨ch, q⟩) s' ∧ s'.mode = .idle ∧ Live E s' := by
  obtain ⟨b', h1, _⟩ := frameToBytes_wire hW be ch buffer hfit (by omega)
  rw [h1] at hsend
  simp only [Res.ok.injEq] at hsend
  obtain ⟨rfl, _⟩ := hsend
  rcases handleInput_raw E hs.ready hidle ty ch bs FRAME_END rest (by omega) hmax with ⟨_, _, hA⟩ | ⟨sB, hB, h⟩
  · exact absurd hmem hA
  · obtain ⟨a, ha⟩ := payloadPhase_wire hW E hmem sB ch (bs.length + 8) hsz
    have hk : handleInput E s (rawFrame ty ch bs FRAME_END ++ rest) =
        .ok ((rawFrame ty ch bs FRAME_END).length, some ⟨ch, q⟩) { sB with allocs := a }.idle := by
      rw [h, bodyPhase_good E _ hB, ha, rawFrame_length]
    exact ⟨_, hk, rfl, .call hs hk⟩

/-- a method frame of the sample queue.declare -/
theorem sample_wire : Wire (.method declareProto.id sampleDeclare) 1
    (beBytes 4 declareProto.id.toNat ++ serArgs declareProto.args sampleDeclare []) (.method declareProto.id sampleDeclare) := by
  refine .method ?_ ?_ ?_ ?_
  · exact List.getElem_mem _
  · exact sampleDeclare_args
  · exact sampleDeclare_enc
  · exact sampleDeclare_faithful

example : (serArgs declareProto.args sampleDeclare []).length + 12 ≤ 64 := by decide +kernel
example : (frameToBytes false (List.replicate 64 9) 64 ⟨5, .body [1, 2, 3]⟩).val? =
    some [3, 0, 5, 0, 0, 0, 3, 1, 2, 3, 206] := by decide +kernel
example : rawFrame 3 5 [1, 2, 3] FRAME_END = [3, 0, 5, 0, 0, 0, 3, 1, 2, 3, 206] := by decide +kernel

/-! ## C17 -/

/-- C17: two ways of splitting the same byte stream give the same frames, the same final status and the same state. -/
theorem C17_chunking_irrelevant (E : PEnv) (s : PState) (hs : Live E s) (chunks chunks' : List Bytes)
    (h : chunks.flatten = chunks'.flatten) : readChunks E s chunks = readChunks E s chunks' := by
  rw [readChunks_eq E chunks s hs.ready, readChunks_eq E chunks' s hs.ready, h]

/-- C17: in particular byte by byte is the same as all at once, also on a new connection. -/
theorem C17_byte_by_byte (E : PEnv) (fm : Nat) (stream : Bytes) :
    readChunks E (newParser fm) (stream.map fun b => [b]) = readChunks E (newParser fm) [stream] := by
  refine C17_chunking_irrelevant E _ (.new fm) _ _ ?_
  induction stream with
  | nil => rfl
  | cons b bs ih => simpa using ih

/-- Two frames, cut in the middle. -/
example : ((readChunks sampleEnv (steady 100) [[3, 0, 1, 0, 0], [0, 2, 7, 9, 206, 8, 0], [0, 0, 0, 0, 0, 206]]).1.map
    fun f => (f.channel, f.payload.frameType)) = [(1, 3), (0, 8)] := by decide +kernel

/-! ## C18 -/

/-- C18: a frame that declares a size above the limit is refused as soon as its seven header octets are there: whatever follows
and however it is split, no frame is delivered, the status is BAD_AMQP_DATA, and no buffer was allocated. -/
theorem C18_oversized_refused (E : PEnv) (s : PState) (hs : Live E s) (hidle : s.mode = .idle) (ty : UInt8) (ch : UInt16)
    (size : Nat) (hsize : size < 2 ^ 32) (hbig : s.frameMax < size + 8 ∨ 2147483647 ≤ size) (rest : Bytes)
    (chunks : List Bytes) (hc : chunks.flatten = ty :: (beBytes 2 ch.toNat ++ beBytes 4 size) ++ rest) :
    ∃ s', readChunks E s chunks = ([], .err St.BAD_AMQP_DATA s') ∧ s'.bufLog = s.bufLog ∧ s'.allocs = s.allocs ∧
      s'.pools = s.pools := by
  have hR := hs.ready
  rw [readChunks_eq E chunks s hR, hc]
  have hne : frameHdr ty ch size ++ rest ≠ [] := by intro h; have := congrArg List.length h; simp [frameHdr_length] at this
  obtain ⟨t, t1, t2, t3, t4, t5, t6, _, _, t9⟩ := handleInput_hdr E hR hidle ty ch size rest
  have hX := (headerOpen_hdr E t1 t2 (by simp [hR.inv.hdr]) hsize).1 (by rw [t3]; exact hbig.symm)
  refine ⟨t, ?_, t4, t5, t6⟩
  have hl : (frameHdr ty ch size ++ rest).length = (6 + rest.length) + 1 := by
    rw [List.length_append, frameHdr_length]; omega
  show drain E (frameHdr ty ch size ++ rest).length s (frameHdr ty ch size ++ rest) = _
  rw [hl, drain_succ hne, t9, headerPhase_eq, hX]

/-- The state left behind, if there is one. -/
def stateLeft : Res PState Unit → Option PState
  | .ok _ s => some s
  | .err _ s => some s
  | _ => none

theorem drain_bounded (E : PEnv) (fm : Nat) : ∀ (n : Nat) (s : PState) (d : Bytes), Bounded fm s →
    ∀ s', stateLeft (drain E n s d).2 = some s' → Bounded fm s' := by
  intro n
  induction n with
  | zero =>
    intro s d h s' hs'
    by_cases hd : d = []
    · simp [drain, hd, stateLeft] at hs'; rw [← hs']; exact h
    · simp [drain, hd, stateLeft] at hs'
  | succ n ih =>
    intro s d h s' hs'
    by_cases hd : d = []
    · simp [drain, hd, stateLeft] at hs'; rw [← hs']; exact h
    · rw [drain_succ hd] at hs'
      have hb := handleInput_bounded E fm d h
      revert hb hs'
      cases handleInput E s d with
      | ok p t => obtain ⟨k, f⟩ := p; intro hs' hb; exact ih t _ hb s' hs'
      | err e t => intro hs' hb; cases hs'; exact hb
      | ub => intro hs'; cases hs'
      | fuel => intro hs'; cases hs'

/-- C18: whatever bytes a new connection receives, in whatever pieces, no frame buffer it asks for exceeds the frame limit. -/
theorem C18_buffers_bounded (E : PEnv) (fm : Nat) (chunks : List Bytes) (s' : PState)
    (h : stateLeft (readChunks E (newParser fm) chunks).2 = some s') : ∀ n ∈ s'.bufLog, n ≤ fm := by
  rw [readChunks_eq E chunks _ (Live.new (E := E) fm).ready] at h
  exact (drain_bounded E fm _ _ _ ⟨rfl, by simp [newParser]⟩ s' h).2

example : (readChunks sampleEnv (steady 20) [[3, 0, 1, 0, 0], [0, 13, 1]]).2.errCode? = some St.BAD_AMQP_DATA := by
  decide +kernel
example : ((readChunks sampleEnv (steady 20) [[3, 0, 1, 0, 0], [0, 12, 1]]).2.state?.map (·.bufLog)) = some [20] := by
  decide +kernel

/-! ## C19 -/

/-- C19: a frame that does not end in the frame-end octet is never delivered, however its bytes arrive. -/
theorem C19_bad_end_never_delivered (E : PEnv) (s : PState) (hs : Live E s) (hidle : s.mode = .idle) (ty : UInt8) (ch : UInt16)
    (payload : Bytes) (fend : UInt8) (hend : fend ≠ FRAME_END) (h31 : payload.length < 2147483647)
    (hmax : payload.length + 8 ≤ s.frameMax) (rest : Bytes) (chunks : List Bytes)
    (hc : chunks.flatten = rawFrame ty ch payload fend ++ rest) :
    ∃ e s', readChunks E s chunks = ([], .err e s') ∧
      (e = St.BAD_AMQP_DATA ∨ (e = St.NO_MEMORY ∧ ¬ ∀ k, E.alloc k = true)) := by
  have hR := hs.ready
  rw [readChunks_eq E chunks s hR, hc]
  have hne : rawFrame ty ch payload fend ++ rest ≠ [] := by
    intro h; have := congrArg List.length h; simp [rawFrame_length] at this
  have hl : (rawFrame ty ch payload fend ++ rest).length = (payload.length + 7 + rest.length) + 1 := by
    rw [List.length_append, rawFrame_length]; omega
  rw [hl, drain_succ hne]
  rcases handleInput_raw E hR hidle ty ch payload fend rest h31 hmax with ⟨s', h, hA⟩ | ⟨sB, hB, h⟩
  · rw [h]; exact ⟨_, _, rfl, Or.inr ⟨rfl, hA⟩⟩
  · rw [h, bodyPhase_bad E _ hB hend]; exact ⟨_, _, rfl, Or.inl rfl⟩

theorem persist_stuck {E : PEnv} {e : Int} {s : PState} (h : Stuck E e s) : ∀ (ds : List Bytes) (a : Nat),
    (∀ d ∈ ds, d ≠ []) → ∀ r ∈ persist E { s with allocs := a } ds, ∃ e' s', r = .err e' s' ∧ (e' = e ∨ e' = St.NO_MEMORY) := by
  intro ds
  induction ds with
  | nil => intro a _ r hr; cases hr
  | cons d ds ih =>
    intro a hd r hr
    obtain ⟨e', a', h1, h2⟩ := h a s.pools d (fun _ h => h) (hd d (by simp))
    unfold persist at hr
    rw [h1] at hr
    rcases List.mem_cons.mp hr with rfl | hr'
    · exact ⟨_, _, rfl, h2⟩
    · exact ih a' (fun d' hd' => hd d' (by simp [hd'])) r hr'

/-- C19: after a call has refused the input, every later call with data, in any number, fails (with the same error, or for want of
memory), and none delivers a frame.  `e ≠ NO_MEMORY`: see `C20_null_after_no_memory` for the other case. -/
theorem C19_error_is_sticky (E : PEnv) (s : PState) (hs : Live E s) (d : Bytes) (e : Int) (s' : PState)
    (h : handleInput E s d = .err e s') (he : e ≠ St.NO_MEMORY) (later : List Bytes) (hl : ∀ d ∈ later, d ≠ []) :
    (persist E s' later).length = later.length ∧
    ∀ r ∈ persist E s' later, ∃ e' s'', r = .err e' s'' ∧ (e' = e ∨ e' = St.NO_MEMORY) := by
  have hS := handleInput_stuck hs.ready h he
  refine ⟨?_, fun r hr => persist_stuck hS later s'.allocs hl r hr⟩
  clear h
  have : ∀ (ds : List Bytes) (a : Nat), (∀ d ∈ ds, d ≠ []) → (persist E { s' with allocs := a } ds).length = ds.length := by
    intro ds
    induction ds with
    | nil => intro a _; rfl
    | cons d ds ih =>
      intro a hd
      obtain ⟨e', a', h1, h2⟩ := hS a s'.pools d (fun _ h => h) (hd d (by simp))
      unfold persist
      rw [h1]
      simp only [List.length_cons]
      rw [ih a' (fun d' hd' => hd d' (by simp [hd']))]
  exact this later s'.allocs hl

example : (handleInput sampleEnv (steady 20) [3, 0, 1, 0, 0, 0, 1, 65, 205]).errCode? = some St.BAD_AMQP_DATA := by
  decide +kernel
example : ((handleInput sampleEnv (steady 20) [3, 0, 1, 0, 0, 0, 1, 65, 205]).state?.map fun s =>
    (persist sampleEnv s [[8, 0, 0, 0, 0, 0, 0, 206], [1]]).map (·.errCode?)) =
    some [some St.BAD_AMQP_DATA, some St.BAD_AMQP_DATA] := by decide +kernel

/-! ## C20 -/

/-- C20, for streams in which method payloads have at least 3 octets, header payloads at least 12 and well-formed flag words
(`SafeStream`): whatever the pieces, whatever the allocator answers, every read stays inside the frame received.  Missing: the
streams a peer can send that are not `SafeStream` (see `C20_unsafe_frames`), and limits above 2^30. -/
theorem C20_safe_streams_partial (E : PEnv) (s : PState) (hs : Live E s) (hidle : s.mode = .idle) (hmax : s.frameMax ≤ 2 ^ 30)
    (chunks : List Bytes) (hsafe : SafeStream s.frameMax chunks.flatten) :
    (∃ s', (readChunks E s chunks).2 = .ok () s') ∨ (∃ e s', (readChunks E s chunks).2 = .err e s') := by
  rw [readChunks_eq E chunks s hs.ready]
  exact drain_safe E hmax hsafe s hs.ready hidle rfl

/-- C20 fails for every other frame: as soon as a complete frame within the limit is not `PayloadOK`, the receiver has read outside
it (or shifted out of range) — unless it ran out of memory first. -/
theorem C20_unsafe_frames (E : PEnv) (hmem : ∀ k, E.alloc k = true) (s : PState) (hs : Live E s) (hidle : s.mode = .idle)
    (ty : UInt8) (ch : UInt16) (payload rest : Bytes) (h31 : payload.length < 2147483647)
    (hmax : payload.length + 8 ≤ s.frameMax) (hbad : ¬ PayloadOK ty payload) :
    handleInput E s (rawFrame ty ch payload FRAME_END ++ rest) = .ub := by
  rcases handleInput_raw E hs.ready hidle ty ch payload FRAME_END rest h31 hmax with ⟨_, _, hA⟩ | ⟨sB, hB, h⟩
  · exact absurd hmem hA
  · rw [h, bodyPhase_good E _ hB, payloadPhase_unsafe E sB ch ty payload _ hbad]

/-- C20: after the allocation of a frame buffer failed, the next call writes through a NULL pointer. -/
theorem C20_null_after_no_memory :
    let E : PEnv := ⟨false, fun k => k == 0, fun _ _ => 0⟩
    let r := handleInput E (steady 100) [3, 0, 1, 0, 0, 0, 1]
    r.errCode? = some St.NO_MEMORY ∧ (r.state?.map fun s => (handleInput E s [65]).isUB) = some true := by
  decide +kernel

example : (handleInput sampleEnv (steady 100) [1, 0, 0, 0, 0, 0, 2, 0, 10, 206]).isUB = true := by decide +kernel
example : (handleInput sampleEnv (steady 100) [1, 0, 0, 0, 0, 0, 3, 0, 10, 0, 206]).errCode? = some St.UNKNOWN_METHOD := by
  decide +kernel
example : (handleInput sampleEnv (steady 100) [2, 0, 0, 0, 0, 0, 11, 0, 60, 0, 0, 0, 0, 0, 0, 0, 0, 0, 206]).isUB = true := by
  decide +kernel
example : SafeStream 100 (rawFrame 8 0 [] FRAME_END ++ rawFrame 1 0 [0, 10, 0, 51] FRAME_END ++ [3, 0]) := by
  rw [List.append_assoc]
  refine .frame _ _ _ (by decide) ⟨by decide, by decide⟩ (.frame _ _ _ (by decide) ⟨by decide, by decide⟩ (.short (by decide)))

/-! ## C21 -/

/-- C21, exactly what happens to the first frame of a connection (other than the peer's protocol header): it is parsed as a later
frame would be whose first payload octet is replaced by the octet the receive buffer happened to contain.  So it is handled like
any other frame when that octet is the right one — 0 on cleared pages, 0 being the first octet of every method and header
payload — and only then.  Missing: frames with an empty payload (see `C21_empty_first_frame`) and body frames starting with
something else. -/
theorem C21_first_frame_partial (E : PEnv) (fm : Nat) (ty : UInt8) (ch : UInt16) (b : UInt8) (p : Bytes) (fend : UInt8)
    (rest : Bytes) (hty : ty ≠ 65) (h31 : p.length + 1 < 2147483647) (hmax : p.length + 9 ≤ fm) :
    (handleInput E (newParser fm) (rawFrame ty ch (b :: p) fend ++ rest)).val? =
      (handleInput E (steady fm) (rawFrame ty ch (E.fresh 1 7 :: p) fend ++ rest)).val? ∧
    (handleInput E (newParser fm) (rawFrame ty ch (b :: p) fend ++ rest)).errCode? =
      (handleInput E (steady fm) (rawFrame ty ch (E.fresh 1 7 :: p) fend ++ rest)).errCode? ∧
    (handleInput E (newParser fm) (rawFrame ty ch (b :: p) fend ++ rest)).isUB =
      (handleInput E (steady fm) (rawFrame ty ch (E.fresh 1 7 :: p) fend ++ rest)).isUB := by
  have := first_frame E fm ty ch b p fend rest hty h31 hmax
  exact ⟨this.val, this.err, this.ub⟩

/-- C21: every method of the protocol and both content classes begin with a zero octet on the wire. -/
theorem C21_methods_start_with_zero (p : Proto) (hp : p ∈ protocol) : (beBytes 4 p.id.toNat).head? = some 0 := by
  have : ∀ p ∈ protocol, (beBytes 4 p.id.toNat).head? = some 0 := by decide +kernel
  exact this p hp

/-- C21: hence on cleared memory the first method frame of a connection is handled like any later one. -/
theorem C21_first_method_frame (E : PEnv) (hclear : E.fresh 1 7 = 0) (fm : Nat) (ch : UInt16) (p : Proto) (hp : p ∈ protocol)
    (args rest : Bytes) (fend : UInt8) (h31 : args.length + 4 < 2147483647) (hmax : args.length + 12 ≤ fm) :
    (handleInput E (newParser fm) (rawFrame 1 ch (beBytes 4 p.id.toNat ++ args) fend ++ rest)).val? =
      (handleInput E (steady fm) (rawFrame 1 ch (beBytes 4 p.id.toNat ++ args) fend ++ rest)).val? ∧
    (handleInput E (newParser fm) (rawFrame 1 ch (beBytes 4 p.id.toNat ++ args) fend ++ rest)).errCode? =
      (handleInput E (steady fm) (rawFrame 1 ch (beBytes 4 p.id.toNat ++ args) fend ++ rest)).errCode? := by
  obtain ⟨t, ht, hl⟩ : ∃ t, beBytes 4 p.id.toNat = 0 :: t ∧ t.length = 3 := by
    have h := C21_methods_start_with_zero p hp
    have hl := beBytes_length 4 p.id.toNat
    cases h' : beBytes 4 p.id.toNat with
    | nil => rw [h'] at h; cases h
    | cons x t => rw [h'] at h hl; cases h; exact ⟨t, rfl, by simpa using hl⟩
  rw [ht, List.cons_append]
  have := first_frame E fm 1 ch 0 (t ++ args) fend rest (by decide) (by simp [hl]; omega) (by simp [hl]; omega)
  rw [hclear] at this
  exact ⟨this.val, this.err⟩

/-- C21: the protocol header a server answers with is delivered. -/
theorem C21_protocol_header (E : PEnv) (fm : Nat) (a b c d : UInt8) (rest : Bytes) :
    (handleInput E (newParser fm) ([65, 77, 81, 80, a, b, c, d] ++ rest)).val? =
      some (8, some ⟨0, .protocolHeader a b c d⟩) := by
  have hne : ([65, 77, 81, 80, a, b, c, d] ++ rest : Bytes) ≠ [] := by simp
  rw [handleInput_eq hne]
  have hw : (newParser fm).wake = newParser fm := rfl
  rw [hw, consumeData_full (s := newParser fm) (m := List.replicate 8 0) rfl (by simp [newParser]) (by simp [newParser])
    (by simp [newParser])]
  rfl

/-- C21 fails: a first frame with an empty payload (such as a heartbeat) is refused, the same frame later on is delivered. -/
theorem C21_empty_first_frame :
    (handleInput sampleEnv (newParser 100) [8, 0, 0, 0, 0, 0, 0, 206]).errCode? = some St.BAD_AMQP_DATA ∧
    ((handleInput sampleEnv (steady 100) [8, 0, 0, 0, 0, 0, 0, 206]).val?.map (·.1)) = some 8 := by
  decide +kernel

/-! ## C22 -/

/-- C22, for buffers of at least 20 octets and bodies that fit: serialising any frame either fails or produces a run of bytes
inside the buffer, and never writes outside it.  Missing: bodies that do not fit (`C22_body_exact`) and smaller buffers
(`C22_tiny_buffer`). -/
theorem C22_stays_inside_partial (be : Bool) (buffer : Bytes) (f : AFrame) (h20 : 20 ≤ buffer.length)
    (hW : WellTyped f.payload) (hbody : ∀ b, f.payload = .body b → b.length + 8 ≤ buffer.length) :
    (∃ bs buffer', frameToBytes be buffer buffer.length f = .ok bs buffer' ∧ bs.length ≤ buffer.length ∧
      buffer'.length = buffer.length) ∨
    (∃ e buffer', frameToBytes be buffer buffer.length f = .err e buffer' ∧ buffer'.length = buffer.length) :=
  frameToBytes_kept be buffer f h20 hW hbody

/-- C22: method and header frames that do not fit are refused with an error. -/
theorem C22_too_big_refused (be : Bool) (buffer : Bytes) (ch : UInt16) {p q : Payload} {ty : UInt8} {bs : Bytes}
    (hW : Wire p ty bs q) (hnb : ∀ b, p ≠ .body b) (h20 : 20 ≤ buffer.length) (hbig : buffer.length < bs.length + 8) :
    ∃ e buffer', frameToBytes be buffer buffer.length ⟨ch, p⟩ = .err e buffer' :=
  frameToBytes_refuse be buffer ch hW hnb h20 hbig

/-- C22 fails for body frames: one that does not fit is not refused, it is written past the end. -/
theorem C22_body_exact (be : Bool) (buffer : Bytes) (ch : UInt16) (b : Bytes) :
    (frameToBytes be buffer buffer.length ⟨ch, .body b⟩).isUB = true ↔ buffer.length < b.length + 8 :=
  frameToBytes_body be buffer ch b

/-- C22 fails for method frames when the buffer is smaller than 12 octets: the remaining size wraps around. -/
theorem C22_tiny_buffer :
    (frameToBytes false (List.replicate 11 0) 11 ⟨0, .method declareProto.id sampleDeclare⟩).isUB = true := by
  decide +kernel

example : (frameToBytes false (List.replicate 24 0) 24 ⟨0, .method declareProto.id sampleDeclare⟩).errCode? =
    some St.BAD_AMQP_DATA := by decide +kernel
example : WellTyped (.method declareProto.id sampleDeclare) := by
  intro p hp hid
  have : p = declareProto := nodup_map_inj Proto.id protocol_ids_nodup hp (List.getElem_mem _) hid
  subst this
  exact sampleDeclare_args

end Rmq
