import Verif.Props.Frames
import Verif.Proofs.Forward
/-!
# C84: what was received can be read as what it says it is, and sent on
-/
namespace Rmq

/-- C84 (contents): whatever octets the peer sent, in whatever pieces, a frame that is delivered is of a kind the protocol has and
carries the fields its number prescribes — so the application may look at the struct of a method, or at the flagged properties of a
content header, by the number alone. -/
theorem C84_received_is_what_it_says (E : PEnv) (s : PState) (d : Bytes) (n : Nat) (f : AFrame) (s' : PState)
    (h : handleInput E s d = .ok (n, some f) s') : Proper f.payload := handleInput_proper h

/-- C84 (forwarding): a frame delivered by a connection is accepted for sending on any other whose buffer is not smaller than the first
one's frame limit, on any channel, and its receiver gets the same contents — the peer's spelling cannot produce a value that does not
survive being sent on.  Missing: the protocol header (which is no frame), and content headers whose flags take more than one word
(see `C84_second_flag_word`). -/
theorem C84_forwarded_unchanged_partial (E : PEnv) (s : PState) (hs : Live E s) (hmax : s.frameMax ≤ 2 ^ 30) (d : Bytes) (n : Nat)
    (f : AFrame) (s' : PState) (h : handleInput E s d = .ok (n, some f) s')
    (hP : ∀ a b c d, f.payload ≠ .protocolHeader a b c d)
    (hF : ∀ cls size flags r, f.payload = .header cls size flags r → flags.toNat < 65536 ∧ ¬ flagSet flags 0)
    (be : Bool) (ch : UInt16) (buffer : Bytes) (hbuf : s.frameMax ≤ buffer.length) :
    ∃ sent buffer', frameToBytes be buffer buffer.length ⟨ch, f.payload⟩ = .ok sent buffer' ∧ buffer'.length = buffer.length ∧
      ∀ (E₂ : PEnv) (_ : ∀ k, E₂.alloc k = true) (s₂ : PState), Live E₂ s₂ → s₂.mode = .idle → s.frameMax ≤ s₂.frameMax → ∀ rest,
        ∃ s₃, handleInput E₂ s₂ (sent ++ rest) = .ok (sent.length, some ⟨ch, f.payload⟩) s₃ ∧ s₃.mode = .idle := by
  have hp := handleInput_again hs.ready hmax h
  obtain ⟨ty, bs, hW, hl⟩ : ∃ ty bs, Wire f.payload ty bs f.payload ∧ bs.length + 8 ≤ s.frameMax := by
    cases hf : f.payload with
    | protocolHeader a b c d => exact absurd hf (hP a b c d)
    | header cls size flags r => rw [hf] at hp; exact hp (hF _ _ _ _ hf)
    | method _ _ => rw [hf] at hp; exact hp
    | body _ => rw [hf] at hp; exact hp
    | heartbeat => rw [hf] at hp; exact hp
    | other _ => rw [hf] at hp; exact hp
  obtain ⟨b', h1, h2⟩ := frameToBytes_wire hW be ch buffer (by omega) (by omega)
  refine ⟨_, _, h1, h2, fun E₂ hA s₂ hs₂ hi hm rest => ?_⟩
  obtain ⟨s₃, h3, h4, _⟩ := C16_frame_round_trip hW be ch buffer _ b' (by omega) (by omega) h1 E₂ hA s₂ hs₂ hi (by omega) rest
  exact ⟨s₃, h3, h4⟩

/-- A content header of class basic with a content-type, whose flag word has the continuation bit set and is followed by an empty word. -/
def twoWordHeader : Bytes := rawFrame 2 1 [0, 60, 0, 0, 0, 0, 0, 0, 0, 0, 0, 3, 128, 1, 0, 0, 2, 120, 121] FRAME_END

/-- C84 fails for flags of two words: this header is delivered with flags 0x8001, and goes out with flags 0x8000. -/
theorem C84_second_flag_word :
    let r := (handleInput sampleEnv (steady 100) twoWordHeader).val?
    (r.bind fun x => x.2.bind fun f => match f.payload with | .header c _ fl _ => some (c, fl) | _ => none) =
      some (60, 0x8001) ∧
    (r.bind fun x => x.2.bind fun f => (frameToBytes false (List.replicate 100 0) 100 f).val?) =
      some (rawFrame 2 1 [0, 60, 0, 0, 0, 0, 0, 0, 0, 0, 0, 3, 128, 0, 2, 120, 121] FRAME_END) := by decide +kernel

/-- The hypotheses met: a basic.deliver with an unusual `redelivered` octet is delivered, and goes out with the usual one … -/
example : ((handleInput sampleEnv (steady 100) (rawFrame 1 3 [0, 60, 0, 60, 1, 116, 0, 0, 0, 0, 0, 0, 0, 9, 255, 0, 1, 113] FRAME_END)).val?.bind
    fun x => x.2.bind fun f => (frameToBytes true (List.replicate 100 0) 100 f).val?) =
    some (rawFrame 1 3 [0, 60, 0, 60, 1, 116, 0, 0, 0, 0, 0, 0, 0, 9, 1, 0, 1, 113] FRAME_END) := by decide +kernel
/-- … and a table whose last entry runs past its declared end (`C67_overrun_accepted`) is sent on with the right length. -/
example : ((handleInput sampleEnv (steady 100) (rawFrame 1 0 [0, 10, 0, 10, 0, 9, 0, 0, 0, 1, 1, 97, 86, 0, 0, 0, 0, 0, 0, 0, 0] FRAME_END)).val?.bind
    fun x => x.2.bind fun f => (frameToBytes true (List.replicate 100 0) 100 f).val?) =
    some (rawFrame 1 0 [0, 10, 0, 10, 0, 9, 0, 0, 0, 3, 1, 97, 86, 0, 0, 0, 0, 0, 0, 0, 0] FRAME_END) := by decide +kernel

end Rmq
