import Verif.Spec.Portable
import Verif.Proofs.Portable
import Verif.Props.Login
/-!
# C101, C102: programs do the same on every machine

A program that uses a connection behaves the same on machines of either byte order; and — up to the first payload octet of the
first frame — whatever memory contained before the library wrote to it.
-/
namespace Rmq

section
variable {H : Prop} {E : NetEnv} {b : Bool} {f : Nat → Nat → UInt8} (hH : H → ∀ n, E.pe.fresh n 7 = f n 7)
include hH

theorem Req.run_alike (mem mem' : Nat → UInt8) {α : Type} (q : Req α) {s s' : Conn} (h : Alike H s s') :
    Rel H (q.run E mem s) (q.run (E.machine b f) mem' s') := by
  cases q with
  | login bd mc a => exact login_alike hH bd mc mem mem' a h
  | tune c fm hb => exact tune_alike c fm hb mem mem' h
  | waitFrame tv => exact waitFrame_alike hH tv h
  | waitFrameOn ch => exact waitFrameOn_alike hH ch h
  | waitMethod ch i => exact waitMethodList_alike hH ch _ _ h
  | sendFrame fr fl => exact sendFrame_alike hH fr fl _ h
  | simpleRpc ch i ex args => exact simpleRpc_alike hH ch i ex args h
  | sendHeader => exact sendHeaderInner_alike _ h
  | readMessage ch => exact readMessage_alike hH ch h
  | consumeMessage tv => exact consumeMessage_alike hH tv h
  | confirmWait tv => exact confirmWait_alike hH tv h
  | publish ch ex rk m i p body => exact basicPublish_alike hH ch ex rk m i p body h
  | release => exact releaseBuffers_alike h
  | maybeRelease => exact .ok _ (maybeRelease_alike h)
  | maybeReleaseOn ch => exact .ok _ (maybeReleaseOn_alike ch h)
  | setRpcTimeout t => obtain ⟨p, m, rfl, hp, hm⟩ := h; exact .ok _ ⟨p, m, rfl, hp, hm⟩
  | setHandshakeTimeout t => obtain ⟨p, m, rfl, hp, hm⟩ := h; exact .ok _ ⟨p, m, rfl, hp, hm⟩
  | look => obtain ⟨p, m, rfl, hp, hm⟩ := h; exact .ok _ ⟨p, m, rfl, hp, hm⟩
  | close =>
    obtain ⟨a, t, t', e1, e2, ht⟩ := sockClose_alike (E := E) (b := b) (f := f) h
    show Rel H (.ok (sockClose E s).1 (sockClose E s).2) (.ok (sockClose (E.machine b f) s').1 (sockClose (E.machine b f) s').2)
    rw [e1, e2]
    exact .ok _ ht

theorem Prog.run_alike (mem mem' : Nat → Nat → UInt8) {ρ : Type} : ∀ (p : Prog ρ) {s s' : Conn}, Alike H s s' →
    p.run E mem s = p.run (E.machine b f) mem' s' := by
  intro p
  induction p with
  | done r => intro s s' h; show Res.ok r s.log = .ok r s'.log; rw [h.log]
  | call q next ih =>
    intro s s' h
    rw [Prog.run, Prog.run]
    rcases (Req.run_alike (b := b) hH (mem s.ps.allocs) (mem' s'.ps.allocs) q h).split with
      ⟨a, t, t', e1, e2, ht⟩ | ⟨e, t, t', e1, e2, ht⟩ | ⟨e1, e2⟩ | ⟨e1, e2⟩ <;> rw [e1, e2]
    · exact ih _ ht
    · exact ih _ ht

end

theorem PFit.new (fm : Nat) : PFit (newParser fm) := by
  refine ⟨rfl, ?_⟩
  show 0 ≤ 8 ∧ 8 ≤ 8 ∧ _
  exact ⟨by decide, by decide, fun h => absurd rfl h⟩

theorem Alike.fresh {H : Prop} (h : H) {s : Conn} {fm n : Nat} (hp : s.ps = newParser fm) (m m' : Nat → UInt8) :
    Alike H { s with outMem := (List.range n).map m } { s with outMem := (List.range n).map m' } :=
  ⟨s.ps, _, rfl, PAlike.refl (hp ▸ PFit.new _) (Or.inr h), List.length_map _ |>.trans (List.length_map _).symm⟩

theorem Alike.new (m m' : Nat → UInt8) {H : Prop} (h : H) : Alike H (newConn m) (newConn m') := by
  unfold newConn
  generalize hn : INITIAL_FRAME_MAX = n
  exact Alike.fresh (s := { ps := newParser n, inb := [], queue := [], heartbeat := 0, nextRecv := TIME_INF, nextSend := TIME_INF, outMem := [], outLen := n, isOpen := true, channelMax := 0, frameMax := n, timeouts := newTimeouts, serverProps := [], clientProps := [], clientBorn := 0, log := [] }) h rfl m m'

theorem Alike.refl {H : Prop} {s : Conn} (h : PFit s.ps) (hm : s.ps.mode ≠ .initial ∨ H) : Alike H s s :=
  ⟨s.ps, s.outMem, rfl, PAlike.refl h hm, rfl⟩

theorem Reached.fit {s : Conn} (h : Reached s) : PFit s.ps := by
  induction h with
  | new m => exact PFit.new _
  | @call s t α E mem q h0 hr ih =>
    have := Req.run_alike (H := True) (E := E) (b := E.pe.be) (f := E.pe.fresh) (fun _ _ => rfl) mem mem q (Alike.refl ih (Or.inr trivial))
    rcases this.split with ⟨a, u, u', e1, e2, hu⟩ | ⟨e, u, u', e1, e2, hu⟩ | ⟨e1, e2⟩ | ⟨e1, e2⟩
    · rw [e1] at hr; cases hr; obtain ⟨_, _, _, hp, _⟩ := hu; exact hp.1
    · rw [e1] at hr; cases hr; obtain ⟨_, _, _, hp, _⟩ := hu; exact hp.1
    · rw [e1] at hr; cases hr
    · rw [e1] at hr; cases hr

/-! ## C101 -/

/-- C101: a program has the same result on a big-endian and on a little-endian machine, and meanwhile the same octets are sent, in the
same portions, and everything else outside happens the same way. -/
theorem C101_same_on_every_machine {ρ : Type} (p : Prog ρ) (E : NetEnv) (mem : Nat → Nat → UInt8) (m0 : Nat → UInt8) (be : Bool) :
    p.run { E with pe := { E.pe with be := be } } mem (newConn m0) = p.run E mem (newConn m0) :=
  (Prog.run_alike (H := True) (E := E) (b := be) (f := E.pe.fresh) (fun _ _ => rfl) mem mem p (Alike.new m0 m0 trivial)).symm

/-- C101, in the middle: from any connection a program can have come to. -/
theorem C101_same_from_anywhere {ρ : Type} (p : Prog ρ) (E : NetEnv) (mem : Nat → Nat → UInt8) {s : Conn} (hs : Reached s) (be : Bool) :
    p.run { E with pe := { E.pe with be := be } } mem s = p.run E mem s :=
  (Prog.run_alike (H := True) (E := E) (b := be) (f := E.pe.fresh) (fun _ _ => rfl) mem mem p (Alike.refl hs.fit (Or.inr trivial))).symm

/-! ## C102 -/

/-- C102, up to one octet: neither the result of a program nor anything that happens outside depends on what any memory contained before
the library wrote to it: the new connection's send buffer (`m0`), the part `realloc` adds to it later (`mem`), the buffers frames are
received into (`fresh`).  Missing: the eighth octet of the latter, see `C102_first_octet`; for memory straight from `calloc` it is
0. -/
theorem C102_leftovers_unseen_partial {ρ : Type} (p : Prog ρ) (E : NetEnv) (mem mem' : Nat → Nat → UInt8) (m0 m0' : Nat → UInt8)
    (fresh : Nat → Nat → UInt8) (h7 : ∀ n, fresh n 7 = E.pe.fresh n 7) :
    p.run { E with pe := { E.pe with fresh := fresh } } mem' (newConn m0') = p.run E mem (newConn m0) :=
  (Prog.run_alike (H := True) (E := E) (b := E.pe.be) (f := fresh) (fun _ n => (h7 n).symm) mem mem' p (Alike.new m0 m0' trivial)).symm

/-- C102, past the first frame's header: then nothing of it matters any more. -/
theorem C102_leftovers_unseen_later {ρ : Type} (p : Prog ρ) (E : NetEnv) (mem mem' : Nat → Nat → UInt8) {s : Conn} (hs : Reached s)
    (hm : s.ps.mode ≠ .initial) (fresh : Nat → Nat → UInt8) :
    p.run { E with pe := { E.pe with fresh := fresh } } mem' s = p.run E mem s :=
  (Prog.run_alike (H := False) (E := E) (b := E.pe.be) (f := fresh) (fun h => h.elim) mem mem' p (Alike.refl hs.fit (Or.inl hm))).symm

/-! ### The hypotheses are met; the statements are not empty -/

/-- A program: log in, publish a message that depends on how that went, wait for a frame, close; its result is the body of that frame. -/
def sampleProg : Prog (Option Bytes) :=
  .call (.login ⟨[49], [50]⟩ eqMemcmp loginArgs) fun r =>
    .call (.publish 1 [101] [107] 0 0 none (match r with | .ok (.normal _) => [1] | _ => [2])) fun _ =>
    .call (.waitFrame none) fun f => .call .close fun _ =>
      .done (match f with | .ok d => (match d.frame.payload with | .body x => some x | _ => none) | .error _ => none)

/-- The server of `goodLogin`, then a body frame, on a machine of either byte order with any leftovers in memory. -/
def sampleNet (be : Bool) (dirt : Nat → Nat → UInt8) : NetEnv :=
  { loginEnv [(4, .data (startBytes "PLAIN")), (10, .data tuneBytes), (15, .data openOkBytes), (21, .data [3, 0, 1, 0, 0, 0, 1, 65, 206])] with
    pe := ⟨be, fun _ => true, dirt⟩ }

/-- It runs to its end: the body is the result, the message published says the login succeeded. -/
theorem sampleProg_runs : (sampleProg.run (sampleNet false fun _ _ => 0) (fun _ _ => 0) (newConn fun _ => 0)).val? = some (some [65]) ∧
    (sampleProg.run (sampleNet false fun _ _ => 0) (fun _ _ => 0) (newConn fun _ => 0)).state?.map (fun l => (sentBytes l).drop ((sentBytes l).length - 9)) =
      some [3, 0, 1, 0, 0, 0, 1, 1, 206] := by decide +kernel

/-- So it does on a big-endian machine … -/
example : (sampleProg.run (sampleNet true fun _ _ => 0) (fun _ _ => 0) (newConn fun _ => 0)).val? = some (some [65]) := by
  have h := C101_same_on_every_machine sampleProg (sampleNet false fun _ _ => 0) (fun _ _ => 0) (fun _ => 0) true
  exact (congrArg Res.val? h).trans sampleProg_runs.1
/-- … and where memory contains anything at all, provided the eighth octet of what frames are received into is 0. -/
example (mem : Nat → Nat → UInt8) (m0 : Nat → UInt8) (dirt : Nat → Nat → UInt8) (h : ∀ n, dirt n 7 = 0) :
    (sampleProg.run (sampleNet false dirt) mem (newConn m0)).val? = some (some [65]) := by
  have h := C102_leftovers_unseen_partial sampleProg (sampleNet false fun _ _ => 0) (fun _ _ => 0) mem (fun _ => 0) m0 dirt h
  exact (congrArg Res.val? h).trans sampleProg_runs.1

/-- After a login the parser is past the first frame: `C102_leftovers_unseen_later` applies. -/
example : ∃ s, Reached s ∧ s.ps.mode ≠ .initial := by
  have h : ((Req.login ⟨[49], [50]⟩ eqMemcmp loginArgs).run (sampleNet false fun _ _ => 0) (fun _ => 0) (newConn fun _ => 0)).state?.map (fun s => decide (s.ps.mode ≠ .initial)) = some true := by
    decide +kernel
  cases hs : ((Req.login ⟨[49], [50]⟩ eqMemcmp loginArgs).run (sampleNet false fun _ _ => 0) (fun _ => 0) (newConn fun _ => 0)).state? with
  | none => rw [hs] at h; cases h
  | some s => rw [hs] at h; exact ⟨s, .call _ _ _ (.new _) hs, of_decide_eq_true (Option.some.inj h)⟩

/-- Just waiting for the first frame. -/
def firstBody : Prog (Option Bytes) :=
  .call (.waitFrame none) fun f => .done (match f with | .ok d => (match d.frame.payload with | .body x => some x | _ => none) | .error _ => none)

/-- One frame, the very first one, with a single octet of payload, `A`; memory for received frames contains `dirt`. -/
def oneFrame (dirt : UInt8) : NetEnv :=
  { netEnv [] [] [(0, .data [3, 0, 1, 0, 0, 0, 1, 65, 206])] [] with pe := ⟨false, fun _ => true, fun _ _ => dirt⟩ }

/-- C102 is false of the first frame of a connection: its first payload octet is whatever memory contained. -/
theorem C102_first_octet : (firstBody.run (oneFrame 0) (fun _ _ => 0) (newConn fun _ => 0)).val? = some (some [0]) ∧
    (firstBody.run (oneFrame 9) (fun _ _ => 0) (newConn fun _ => 0)).val? = some (some [9]) := by decide +kernel

end Rmq
