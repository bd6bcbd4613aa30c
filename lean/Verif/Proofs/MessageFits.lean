import Verif.Proofs.Forward
import Verif.Spec.Message
/-!
# The frames the parser delivers have what the copy of a message looks for
-/
namespace Rmq.PoolM

mutual
/-- Every string, array and table inside is shorter than 2^32, as in a frame. -/
def fitsFV : FV → Prop
  | .utf8 b | .bytes b => b.length < 2 ^ 32
  | .array vs => vs.length < 2 ^ 32 ∧ fitsL vs
  | .table es => es.length < 2 ^ 32 ∧ fitsE es
  | _ => True
def fitsL : List FV → Prop
  | [] => True
  | v :: vs => fitsFV v ∧ fitsL vs
def fits1 : Rmq.Entry → Prop
  | .mk k v => k.length < 2 ^ 32 ∧ fitsFV v
def fitsE : List Rmq.Entry → Prop
  | [] => True
  | e :: es => fits1 e ∧ fitsE es
end

def fitsVal : Val → Prop
  | .bytes b => b.length < 2 ^ 32
  | .table t => t.length < 2 ^ 32 ∧ fitsE t
  | _ => True

/-- A frame as the library decodes it: a header frame (of class basic) has the properties it flags; a basic.deliver has its three strings. -/
def fitsFrame (f : AFrame) : Prop :=
  match f.payload with
  | .header _ _ flags props => ∀ x ∈ clonedProps, flags &&& UInt32.ofNat (1 <<< x.1) ≠ 0 → ∃ v, props.get? x.2 = some v ∧ fitsVal v
  | .method id args => id = BASIC_DELIVER →
    (∃ b, args.get? .consumer_tag = some (.bytes b)) ∧ (∃ b, args.get? .exchange = some (.bytes b)) ∧ ∃ b, args.get? .routing_key = some (.bytes b)
  | _ => True

/-- A script of such frames. -/
def Script.fits : Script → Prop
  | .fails ops _ => ∀ op ∈ ops, op.sane
  | .frame ops f rest => (∀ op ∈ ops, op.sane) ∧ fitsFrame f ∧ rest.fits

end Rmq.PoolM

namespace Rmq

open PoolM

mutual
theorem SpellFV.fits {strict canon : Prop} {bs : Bytes} {v : FV} (h : SpellFV strict canon bs v) : fitsFV v ∧ 0 < bs.length := by
  match h with
  | .plain v hp hr =>
    cases v with
    | utf8 b => exact ⟨hr, Nat.succ_pos _⟩
    | bytes b => exact ⟨hr, Nat.succ_pos _⟩
    | boolean _ => exact hp.elim
    | array _ => exact hp.elim
    | table _ => exact hp.elim
    | other _ => exact hp.elim
    | _ => exact ⟨trivial, Nat.succ_pos _⟩
  | .boolean b hb => exact ⟨trivial, Nat.succ_pos _⟩
  | .array n bs vs hn h =>
    obtain ⟨h1, h2⟩ := SpellFVs.fits h
    exact ⟨⟨by omega, h2⟩, Nat.succ_pos _⟩
  | .table n bs vs hn h =>
    obtain ⟨h1, h2⟩ := SpellEntries.fits h
    exact ⟨⟨by omega, h2⟩, Nat.succ_pos _⟩
theorem SpellFVs.fits {strict canon : Prop} {n : Nat} {bs : Bytes} {vs : List FV} (h : SpellFVs strict canon n bs vs) : vs.length ≤ n ∧ fitsL vs := by
  match h with
  | .nil => exact ⟨Nat.le_refl _, trivial⟩
  | .cons n a bs v vs h0 hs h1 h2 =>
    obtain ⟨e1, r1⟩ := SpellFV.fits h1
    obtain ⟨e2, r2⟩ := SpellFVs.fits h2
    exact ⟨by rw [List.length_cons]; omega, e1, r2⟩
theorem SpellEntries.fits {strict canon : Prop} {n : Nat} {bs : Bytes} {es : List Entry} (h : SpellEntries strict canon n bs es) :
    es.length ≤ n ∧ fitsE es := by
  match h with
  | .nil => exact ⟨Nat.le_refl _, trivial⟩
  | .cons n k a bs v es h0 hk hs h1 h2 =>
    obtain ⟨e1, r1⟩ := SpellFV.fits h1
    obtain ⟨e2, r2⟩ := SpellEntries.fits h2
    refine ⟨?_, ⟨by omega, e1⟩, r2⟩
    rw [List.length_append] at e2
    rw [List.length_cons]
    omega
end

theorem decField_fits {E : DEnv} {t : FT} {s s' : DState} {v : Val} (h : decField E t s = .ok v s') : fitsVal v := by
  cases t <;> simp only [decField] at h
  case shortstr =>
    obtain ⟨n, t, _, h⟩ := bind_val h
    obtain ⟨b, u, hb, h⟩ := bind_val h
    cases h
    have := Yields.decBytes St.BAD_AMQP_DATA n.toNat t (E := E)
    rw [hb] at this
    obtain ⟨_, _, _, rfl, hl⟩ := this
    have := n.toNat_lt
    show _ < _
    omega
  case longstr =>
    obtain ⟨n, t, _, h⟩ := bind_val h
    obtain ⟨b, u, hb, h⟩ := bind_val h
    cases h
    have := Yields.decBytes St.BAD_AMQP_DATA n.toNat t (E := E)
    rw [hb] at this
    obtain ⟨_, _, _, rfl, hl⟩ := this
    have := n.toNat_lt
    show _ < _
    omega
  case table =>
    obtain ⟨b, u, hb, h⟩ := bind_val h
    cases h
    have := (decode_spells E (decFuel E s.off)).2.2.2.1 0 s
    unfold decodeTable at hb
    rw [hb] at this
    obtain ⟨_, _, _, n, body, hn, _, hs⟩ := this
    obtain ⟨h1, h2⟩ := hs.fits
    exact ⟨by omega, h2⟩
  all_goals obtain ⟨_, _, _, h⟩ := bind_val h; cases h; trivial

theorem decProps_fits {E : DEnv} {flags : UInt32} : ∀ {ps : List (Nat × FT × Fld)} {s s' : DState} {r : Rec},
    decProps E flags ps s = .ok r s' → ∀ x ∈ r, fitsVal x.2
  | [], s, s', r, h => by cases h; intro x hx; cases hx
  | (i, t, f) :: ps, s, s', r, h => by
    unfold decProps at h
    split at h
    · obtain ⟨v, t, h3, h⟩ := bind_val h
      obtain ⟨y, u, h4, h⟩ := bind_val h
      cases h
      intro x hx
      rcases List.mem_cons.1 hx with rfl | hx
      · exact decField_fits h3
      · exact decProps_fits h4 x hx
    · exact decProps_fits h

theorem decProperties_fits {E : DEnv} {cls : UInt16} {k : Nat} {flags : UInt32} {r : Rec} {d : DState}
    (h : decProperties E cls k = .ok (flags, r) d) : ∀ x ∈ r, fitsVal x.2 := by
  unfold decProperties at h
  obtain ⟨fl, t, _, h⟩ := bind_val h
  cases hs : switch cls decPropTable with
  | none => rw [hs] at h; cases h
  | some ps =>
    rw [hs] at h
    obtain ⟨_, t', _, h⟩ := bind_val h
    obtain ⟨r', t'', h2, h⟩ := bind_val h
    cases h
    exact decProps_fits h2

/-- The properties of a header were decoded. -/
def Decoded : Payload → Prop
  | .header _ _ _ r => ∀ x ∈ r, fitsVal x.2
  | _ => True

theorem bodyPhase_decoded {E : PEnv} {s : PState} {k n : Nat} {f : AFrame} {s' : PState} (h : bodyPhase E s k = .ok (n, some f) s') : Decoded f.payload := by
  unfold bodyPhase at h
  split at h
  · cases h
  · split at h
    · cases h
    · split at h
      · cases h
      · split at h
        · split at h
          · cases h
          · split at h
            · split at h
              · cases h
              · split at h
                · next hd => cases h; trivial
                · cases h
                · cases h
                · cases h
            · split at h
              · split at h
                · split at h
                  · next hd => cases h; exact decProperties_fits hd
                  · cases h
                  · cases h
                  · cases h
                · cases h
              · split at h
                · split at h <;> cases h
                  trivial
                · split at h <;> cases h
                  trivial
        · cases h

theorem headerPhase_decoded {E : PEnv} {s : PState} {k n : Nat} {r : Bytes} {f : AFrame} {s' : PState} (h : headerPhase E s k r = .ok (n, some f) s') :
    Decoded f.payload := by
  unfold headerPhase at h
  split at h
  · cases h
  · split at h
    · split at h
      · cases h
      · dsimp only at h
        split at h
        · cases h
        · split at h
          · cases h
          · split at h
            · split at h
              · cases h
              · split at h
                · cases h
                · split at h
                  · cases h
                  · exact bodyPhase_decoded h
            · cases h
    · cases h

theorem handleInput_decoded {E : PEnv} {s : PState} {d : Bytes} {n : Nat} {f : AFrame} {s' : PState} (h : handleInput E s d = .ok (n, some f) s') :
    Decoded f.payload := by
  unfold handleInput at h
  split at h
  · cases h
  · dsimp only at h
    split at h
    · cases h
    · split at h
      · cases h
      · split at h
        · split at h
          · cases h
          · split at h
            · split at h <;> cases h
              trivial
            · exact headerPhase_decoded h
        · exact headerPhase_decoded h
        · exact bodyPhase_decoded h
        · cases h

theorem get?_mem {r : Rec} {f : Fld} {v : Val} (h : r.get? f = some v) : ∃ x ∈ r, x.2 = v := by
  unfold Rec.get? at h
  cases hf : r.find? (fun p => p.1 = f) with
  | none => rw [hf] at h; cases h
  | some x => rw [hf] at h; cases h; exact ⟨x, List.mem_of_find?_eq_some hf, rfl⟩

theorem HasArgs.split {f : Fld} {d : Dom} {as : List (Fld × Dom)} {r : Rec} (h : HasArgs ((f, d) :: as) r) :
    ∃ v r', r = (f, v) :: r' ∧ d.admits v ∧ HasArgs as r' := by
  cases h with | cons h1 h2 => exact ⟨_, _, rfl, h1, h2⟩

/-- Whatever the bytes, a delivered frame — if it is a content header, one of class basic — has what the copy looks for. -/
theorem handleInput_fits {E : PEnv} {s : PState} {d : Bytes} {n : Nat} {f : AFrame} {s' : PState} (h : handleInput E s d = .ok (n, some f) s')
    (hb : ∀ cls size flags r, f.payload = .header cls size flags r → cls = 60) : fitsFrame f := by
  have hp := handleInput_proper h
  have hd := handleInput_decoded h
  unfold fitsFrame
  cases hf : f.payload with
  | header cls size flags r =>
    rw [hf] at hp hd
    have := hb _ _ _ _ hf
    subst this
    obtain ⟨c, hc, he, hok, _⟩ := hp
    have hc' : c = (60, basicProps) := by
      simp only [propClasses, List.mem_cons, List.not_mem_nil, or_false] at hc
      rcases hc with rfl | rfl | rfl | rfl | rfl | rfl | rfl | rfl
      all_goals first
        | rfl
        | exact absurd he (by decide)
    subst hc'
    dsimp only
    intro x hx hflag
    have hm : ∀ x ∈ clonedProps, x.1 < 32 ∧ ∃ p ∈ basicProps, p.1 = x.1 ∧ p.2.1 = x.2 := by decide
    obtain ⟨hlt, p, hpm, h1, h2⟩ := hm x hx
    obtain ⟨v, hv, _⟩ := hok p hpm (by rw [h1]; exact (and_bit hlt).1 hflag)
    rw [h2] at hv
    obtain ⟨y, hy, rfl⟩ := get?_mem hv
    exact ⟨_, hv, hd y hy⟩
  | method id args =>
    rw [hf] at hp
    dsimp only
    rintro rfl
    obtain ⟨p, hp, hid, ha⟩ := hp
    have : ∀ p ∈ protocol, p.id = BASIC_DELIVER →
        p.args = [(.consumer_tag, .shortstr), (.delivery_tag, .longlong), (.redelivered, .bit), (.exchange, .shortstr), (.routing_key, .shortstr)] := by
      decide +kernel
    rw [this p hp hid] at ha
    obtain ⟨v1, _, rfl, h1, ha⟩ := ha.split
    obtain ⟨v2, _, rfl, h2, ha⟩ := ha.split
    obtain ⟨v3, _, rfl, h3, ha⟩ := ha.split
    obtain ⟨v4, _, rfl, h4, ha⟩ := ha.split
    obtain ⟨v5, _, rfl, h5, ha⟩ := ha.split
    cases v1 <;> try exact h1.elim
    cases v4 <;> try exact h4.elim
    cases v5 <;> try exact h5.elim
    exact ⟨⟨_, rfl⟩, ⟨_, rfl⟩, ⟨_, rfl⟩⟩
  | _ => trivial

theorem PoolM.Script.sane.fits : ∀ {s : Script}, s.sane → s.fits
  | .fails _ _, h => h
  | .frame _ _ _, ⟨h1, ⟨⟨_, _, _, _, _, h2⟩, h3⟩, h4⟩ => ⟨h1, handleInput_fits h2 h3, Script.sane.fits h4⟩

end Rmq
