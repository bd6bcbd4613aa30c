import Verif.Model.Methods
import Verif.Spec.Methods
import Verif.Proofs.TableRound
/-! Encoding and decoding of method arguments. -/
namespace Rmq

/-- The wire type used for a domain (bits are handled apart). -/
def Dom.ft : Dom → FT
  | .octet => .octet | .short => .short | .long => .long | .longlong => .longlong
  | .shortstr => .shortstr | .longstr => .longstr | .table => .table | .bit => .octet

def flushOps : List (Fld × Nat) → List Op
  | [] => []
  | p => [.bits p]

/-- The statement groups expected for an argument list. -/
def groupOps : List (Fld × Dom) → List (Fld × Nat) → List Op
  | [], p => flushOps p
  | (f, .bit) :: as, p =>
    if p.length = 8 then flushOps p ++ groupOps as [(f, 0)] else groupOps as (p ++ [(f, p.length)])
  | (f, d) :: as, p => flushOps p ++ (.field d.ft f :: groupOps as [])

theorem encTableOps_eq : encTableOps = protocol.map (fun p => (p.id, groupOps p.args [])) := by decide +kernel
theorem decTableOps_eq : decTableOps = protocol.map (fun p => (p.id, groupOps p.args [])) := by decide +kernel

/-! ### fields -/

theorem encField_encodes (be : Bool) (len : Nat) (d : Dom) (v : Val) (hd : d ≠ .bit) (ha : d.admits v) :
    Encodes len TableErr (d.encodable v) (serDom d v) (encField be len d.ft (some v)) := by
  cases d <;> cases v <;> first | exact absurd ha id | exact absurd rfl hd | skip
  · exact Encodes.enc8 TableErr.bad _
  · exact Encodes.enc16 TableErr.bad be _
  · exact Encodes.enc32 TableErr.bad be _
  · exact Encodes.enc64 TableErr.bad be _
  · rename_i b
    show Encodes len TableErr (b.length ≤ 255) (serShort b) (if 255 < b.length then _ else _)
    by_cases h : 255 < b.length
    · rw [if_pos h]
      exact (Encodes.fail TableErr.bad _).congr_valid (by constructor <;> intro h' <;> first | exact h'.elim | omega)
    · rw [if_neg h]
      have h1 := Encodes.enc8 (len := len) (errs := TableErr) (e := St.BAD_AMQP_DATA) TableErr.bad (UInt8.ofNat b.length)
      have hb : (UInt8.ofNat b.length).toNat = b.length := by rw [UInt8.toNat_ofNat']; exact Nat.mod_eq_of_lt (by omega)
      rw [hb] at h1
      exact (h1.bind (y := fun _ => M.orFail St.BAD_AMQP_DATA (Rmq.encBytes len b))
        (Encodes.encBytes TableErr.bad b)).congr_valid (by simp; omega)
  · rename_i b
    show Encodes len TableErr (b.length < 2 ^ 32) (serLong b) (if 4294967295 < b.length then _ else _)
    by_cases h : 4294967295 < b.length
    · rw [if_pos h]
      exact (Encodes.fail TableErr.bad _).congr_valid (by constructor <;> intro h' <;> first | exact h'.elim | omega)
    · rw [if_neg h]
      have h1 := Encodes.enc32 (len := len) (errs := TableErr) (e := St.BAD_AMQP_DATA) TableErr.bad be (UInt32.ofNat b.length)
      have hb : (UInt32.ofNat b.length).toNat = b.length := by rw [UInt32.toNat_ofNat']; exact Nat.mod_eq_of_lt (by omega)
      rw [hb] at h1
      exact (h1.bind (y := fun _ => M.orFail St.BAD_AMQP_DATA (Rmq.encBytes len b))
        (Encodes.encBytes TableErr.bad b)).congr_valid (by simp; omega)
  · exact encTable_encodes be len _

theorem decField_ser {E : DEnv} (hG : E.Good) (d : Dom) (v : Val) (hd : d ≠ .bit) (ha : d.admits v)
    (he : d.encodable v) (hf : d.faithful v) : DecodesTo E (decField E d.ft) (serDom d v) v := by
  cases d <;> cases v <;> first | exact absurd ha id | exact absurd rfl hd | skip
  · exact DecodesTo.map _ (DecodesTo.dec8 hG.mem _ _)
  · exact DecodesTo.map _ (DecodesTo.dec16 hG.mem _ _)
  · exact DecodesTo.map _ (DecodesTo.dec32 hG.mem _ _)
  · exact DecodesTo.map _ (DecodesTo.dec64 hG.mem _ _)
  · rename_i b
    have hl : b.length ≤ 255 := he
    have hb : (UInt8.ofNat b.length).toNat = b.length := by rw [UInt8.toNat_ofNat']; exact Nat.mod_eq_of_lt (by omega)
    have h1 := DecodesTo.dec8 hG.mem St.BAD_AMQP_DATA (UInt8.ofNat b.length)
    rw [hb] at h1
    refine DecodesTo.bind (b₂ := b) h1 ?_
    rw [hb]
    exact DecodesTo.map _ (DecodesTo.decBytes hG.mem _ b)
  · exact DecodesTo.longstr hG.mem _ he _
  · exact DecodesTo.map _ (decodeTable_ser E hG _ hf.1 hf.2)

theorem decField_safe {E : DEnv} (hE : E.len ≤ E.mem.length) (hB : E.len ≤ 2 ^ 30) (t : FT) (s : DState)
    (hs : s.off ≤ E.len) : SafeRes E DecErr 1 s (decField E t s) := by
  have W : ∀ {m : Nat} {r : Res DState Val}, SafeRes E DecErr (1 + m) s r → SafeRes E DecErr 1 s r :=
    fun h => SafeRes.weaken (by omega) h
  cases t
  · exact SafeRes.map _ (SafeRes.dec8 hE DecErr.bad s)
  · exact W (m := 1) (SafeRes.map _ (SafeRes.dec16 hE DecErr.bad s))
  · exact W (m := 3) (SafeRes.map _ (SafeRes.dec32 hE DecErr.bad s))
  · exact W (m := 7) (SafeRes.map _ (SafeRes.dec64 hE DecErr.bad s))
  · refine W (m := 0) (SafeRes.bind (SafeRes.dec8 hE DecErr.bad s) fun n s1 _ _ _ => ?_)
    exact SafeRes.weaken (Nat.zero_le _) (SafeRes.map _ (SafeRes.decBytes hE DecErr.bad n.toNat s1))
  · refine W (m := 3) (SafeRes.bind (m₂ := 0) (SafeRes.dec32 hE DecErr.bad s) fun n s1 _ _ _ => ?_)
    exact SafeRes.weaken (Nat.zero_le _) (SafeRes.map _ (SafeRes.decBytes hE DecErr.bad n.toNat s1))
  · exact W (m := 3) (SafeRes.map _ (decodeTable_safe E hE hB s hs))

/-! ### bits -/

/-- The pending bit fields `p` of struct `r` carry the bits `bl`, with consecutive shifts from `k`. -/
def PendOK (r : Rec) : Nat → List (Fld × Nat) → List Bool → Prop
  | _, [], [] => True
  | k, (f, i) :: p, b :: bl => i = k ∧ (∃ v, r.get? f = some (.bool v) ∧ decide (v ≠ 0) = b) ∧ PendOK r (k + 1) p bl
  | _, _, _ => False

theorem PendOK.length {r : Rec} {k : Nat} {p : List (Fld × Nat)} {bl : List Bool} (h : PendOK r k p bl) :
    p.length = bl.length := by
  induction p generalizing k bl with
  | nil => cases bl with
    | nil => rfl
    | cons _ _ => exact h.elim
  | cons a p ih => cases bl with
    | nil => exact h.elim
    | cons b bl => simp [ih h.2.2]

theorem PendOK.snoc {r : Rec} {k : Nat} {p : List (Fld × Nat)} {bl : List Bool} (h : PendOK r k p bl) {f : Fld} {v : Int32}
    (hv : r.get? f = some (.bool v)) : PendOK r k (p ++ [(f, k + p.length)]) (bl ++ [decide (v ≠ 0)]) := by
  induction p generalizing k bl with
  | nil => cases bl with
    | nil => exact ⟨rfl, ⟨v, hv, rfl⟩, trivial⟩
    | cons _ _ => exact h.elim
  | cons a p ih => cases bl with
    | nil => exact h.elim
    | cons b bl =>
      refine ⟨h.1, h.2.1, ?_⟩
      have := ih h.2.2
      rw [Nat.add_assoc, Nat.add_comm 1] at this
      exact this

theorem bitsVal_lt (bl : List Bool) : bitsVal bl < 2 ^ bl.length := by
  induction bl with
  | nil => simp [bitsVal]
  | cons b bl ih =>
    simp only [bitsVal, List.length_cons, Nat.pow_succ]
    split <;> omega

theorem one_shl_u8 {k : Nat} (hk : k < 8) : (UInt8.ofNat (1 <<< k)).toNat = 2 ^ k := by
  rw [UInt8.toNat_ofNat', Nat.one_shiftLeft]
  exact Nat.mod_eq_of_lt (Nat.pow_lt_pow_right (by omega) hk)

theorem bitBuffer_eq {r : Rec} {k : Nat} {p : List (Fld × Nat)} {bl : List Bool} (h : PendOK r k p bl) (acc : UInt8)
    (hacc : acc.toNat < 2 ^ k) (hk : k + p.length ≤ 8) :
    ∃ b, bitBuffer r p acc = some b ∧ b.toNat = acc.toNat + 2 ^ k * bitsVal bl := by
  induction p generalizing k bl acc with
  | nil => cases bl with
    | nil => exact ⟨acc, rfl, by simp [bitsVal]⟩
    | cons _ _ => exact h.elim
  | cons a p ih => cases bl with
    | nil => exact h.elim
    | cons b bl =>
      obtain ⟨f, i⟩ := a
      obtain ⟨rfl, ⟨v, hv, hb⟩, hp⟩ := h
      simp only [List.length_cons] at hk
      unfold bitBuffer
      simp only [hv]
      by_cases hz : v ≠ 0
      · rw [if_pos hz]
        have hor : (acc ||| UInt8.ofNat (1 <<< i)).toNat = acc.toNat + 2 ^ i := by
          rw [UInt8.toNat_or, one_shl_u8 (by omega), Nat.or_comm, Nat.add_comm]
          have := Nat.two_pow_add_eq_or_of_lt hacc 1
          simp only [Nat.mul_one] at this
          exact this.symm
        obtain ⟨b', h1, h2⟩ := ih hp _ (by rw [hor, Nat.pow_succ]; omega) (by omega)
        refine ⟨b', h1, ?_⟩
        have : b = true := by rw [← hb]; simpa using hz
        subst this
        rw [h2, hor]
        simp only [bitsVal, if_true, Nat.pow_succ, Nat.mul_add, Nat.mul_one]
        rw [Nat.mul_assoc]; omega
      · rw [if_neg hz]
        obtain ⟨b', h1, h2⟩ := ih hp acc (by rw [Nat.pow_succ]; omega) (by omega)
        refine ⟨b', h1, ?_⟩
        have : b = false := by rw [← hb]; simpa using hz
        subst this
        rw [h2]
        simp only [bitsVal, Nat.pow_succ, Nat.mul_add]
        rw [Nat.mul_assoc]; simp

/-- What decoding pending bits must produce. -/
def pendRec (p : List (Fld × Nat)) (bl : List Bool) : Rec :=
  List.zipWith (fun a b => (a.1, Val.bool (if b then 1 else 0))) p bl

theorem unpack_eq {r : Rec} {k : Nat} {p : List (Fld × Nat)} {bl : List Bool} (h : PendOK r k p bl) (b : UInt8) (lo : Nat)
    (hlo : lo < 2 ^ k) (hb : b.toNat = lo + 2 ^ k * bitsVal bl) (hk : k + p.length ≤ 8) :
    p.map (unpackBit b) = pendRec p bl := by
  induction p generalizing k bl lo with
  | nil => cases bl with
    | nil => rfl
    | cons _ _ => exact h.elim
  | cons a p ih => cases bl with
    | nil => exact h.elim
    | cons c bl =>
      obtain ⟨f, i⟩ := a
      obtain ⟨rfl, _, hp⟩ := h
      simp only [List.length_cons] at hk
      have hb2 : b.toNat = (lo + if c then 2 ^ i else 0) + 2 ^ (i + 1) * bitsVal bl := by
        rw [hb]; simp only [bitsVal, Nat.mul_add, Nat.pow_succ, Nat.mul_assoc]
        cases c <;> simp <;> omega
      have htb : (b &&& UInt8.ofNat (1 <<< i) ≠ 0) ↔ c = true := by
        have : b.toNat.testBit i = c := by
          rw [hb2, Nat.testBit_eq_decide_div_mod_eq]
          have : (lo + (if c then 2 ^ i else 0) + 2 ^ (i + 1) * bitsVal bl) / 2 ^ i
              = (if c then 1 else 0) + 2 * bitsVal bl := by
            have e : lo + (if c then 2 ^ i else 0) + 2 ^ (i + 1) * bitsVal bl
                = lo + 2 ^ i * ((if c then 1 else 0) + 2 * bitsVal bl) := by
              cases c <;> simp [Nat.pow_succ, Nat.mul_add, Nat.mul_assoc, Nat.add_assoc]
            rw [e, Nat.add_mul_div_left _ _ (Nat.two_pow_pos i), Nat.div_eq_of_lt hlo, Nat.zero_add]
          rw [this]
          cases c <;> simp
        rw [← this]
        rw [ne_eq, ← UInt8.toNat_inj, UInt8.toNat_and, one_shl_u8 (by omega)]
        constructor
        · intro h
          refine Classical.byContradiction fun hf => ?_
          refine h (Nat.eq_of_testBit_eq fun j => ?_)
          rw [Nat.testBit_and, Nat.testBit_two_pow]
          by_cases hj : i = j
          · subst hj; simp at hf; simp [hf]
          · simp [hj]
        · intro h h0
          have := congrArg (·.testBit i) h0
          simp [Nat.testBit_and, Nat.testBit_two_pow, h] at this
      simp only [List.map_cons, pendRec, List.zipWith_cons_cons, unpackBit]
      refine List.cons_eq_cons.mpr ⟨?_, ?_⟩
      · cases c
        · rw [if_neg (by rw [htb]; simp)]; rfl
        · rw [if_pos (by rw [htb])]; rfl
      · refine ih hp _ ?_ hb2 (by omega)
        rw [Nat.pow_succ]
        cases c <;> simp <;> omega

theorem pendRec_snoc {p : List (Fld × Nat)} {bl : List Bool} (h : p.length = bl.length) (a : Fld × Nat) (b : Bool) :
    pendRec (p ++ [a]) (bl ++ [b]) = pendRec p bl ++ [(a.1, .bool (if b then 1 else 0))] := by
  simp only [pendRec]
  rw [List.zipWith_append h]; rfl

theorem encBits_encodes (be : Bool) (len : Nat) {r : Rec} {p : List (Fld × Nat)} {bl : List Bool} (h : PendOK r 0 p bl)
    (hk : p.length ≤ 8) {v : Prop} {bs : Bytes} {ops : List Op} (hops : Encodes len TableErr v bs (encOps be len r ops)) :
    Encodes len TableErr v (serBits bl ++ bs) (encOps be len r (flushOps p ++ ops)) := by
  cases p with
  | nil => cases bl with
    | nil => exact hops
    | cons _ _ => exact h.elim
  | cons a p => cases bl with
    | nil => exact h.elim
    | cons b bl =>
      obtain ⟨o, ho, hv⟩ := bitBuffer_eq h 0 (by simp) (by simpa using hk)
      have e : (encOps be len r (flushOps (a :: p) ++ ops)) =
          (M.orFail St.BAD_AMQP_DATA (Rmq.enc8 len o) >>= fun _ => encOps be len r ops) := by
        show (encOp be len r (.bits (a :: p)) >>= fun _ => encOps be len r ops) = _
        simp only [encOp, ho]
      have h8 := Encodes.enc8 (len := len) (errs := TableErr) (e := St.BAD_AMQP_DATA) TableErr.bad o
      rw [hv] at h8
      simp only [Nat.pow_zero, Nat.one_mul, UInt8.toNat_zero, Nat.zero_add] at h8
      rw [e]
      exact (h8.bind (y := fun _ => encOps be len r ops) hops).congr_valid (by simp)

theorem decBits_ser {E : DEnv} (hG : E.Good) {r : Rec} {p : List (Fld × Nat)} {bl : List Bool} (h : PendOK r 0 p bl)
    (hk : p.length ≤ 8) {bs : Bytes} {ops : List Op} {w : Rec} (hops : DecodesTo E (decOps E ops) bs w) :
    DecodesTo E (decOps E (flushOps p ++ ops)) (serBits bl ++ bs) (pendRec p bl ++ w) := by
  cases p with
  | nil => cases bl with
    | nil => exact hops
    | cons _ _ => exact h.elim
  | cons a p => cases bl with
    | nil => exact h.elim
    | cons b bl =>
      have hlt : bitsVal (b :: bl) < 256 := by
        have h1 := bitsVal_lt (b :: bl)
        have h2 := h.length
        have : 2 ^ (b :: bl).length ≤ 2 ^ 8 := Nat.pow_le_pow_right (by omega) (by omega)
        omega
      have h8 := DecodesTo.dec8 hG.mem St.BAD_AMQP_DATA (UInt8.ofNat (bitsVal (b :: bl)))
      have hv : (UInt8.ofNat (bitsVal (b :: bl))).toNat = bitsVal (b :: bl) := by
        rw [UInt8.toNat_ofNat']; exact Nat.mod_eq_of_lt hlt
      rw [hv] at h8
      have hu := unpack_eq h (UInt8.ofNat (bitsVal (b :: bl))) 0 (by simp) (by rw [hv]; simp) (by simpa using hk)
      show DecodesTo E (decOp E (.bits (a :: p)) >>= fun x => decOps E ops >>= fun y => Pure.pure (x ++ y))
        (beBytes 1 (bitsVal (b :: bl)) ++ bs) _
      refine DecodesTo.bind (a := pendRec (a :: p) (b :: bl)) ?_ (DecodesTo.map _ hops)
      rw [← hu]
      exact DecodesTo.map (fun b => (_ : List (Fld × Nat)).map (unpackBit b)) h8

/-! ### argument lists -/

theorem serArgs_nonbit {f g : Fld} {d : Dom} {v : Val} {as : List (Fld × Dom)} {r : Rec} {p : List Bool} (hd : d ≠ .bit) :
    serArgs ((f, d) :: as) ((g, v) :: r) p = serBits p ++ serDom d v ++ serArgs as r [] := by
  cases d <;> first | exact absurd rfl hd | rfl

theorem groupOps_nonbit {f : Fld} {d : Dom} {as : List (Fld × Dom)} {p : List (Fld × Nat)} (hd : d ≠ .bit) :
    groupOps ((f, d) :: as) p = flushOps p ++ (.field d.ft f :: groupOps as []) := by
  cases d <;> first | exact absurd rfl hd | rfl

theorem encArgs_encodes (be : Bool) (len : Nat) (r : Rec) (as : List (Fld × Dom)) (rs : Rec) (hA : HasArgs as rs)
    (hg : ∀ q ∈ rs, r.get? q.1 = some q.2) (p : List (Fld × Nat)) (bl : List Bool) (hp : PendOK r 0 p bl)
    (hk : p.length ≤ 8) :
    Encodes len TableErr (AllArgs Dom.encodable as rs) (serArgs as rs bl) (encOps be len r (groupOps as p)) := by
  induction hA generalizing p bl with
  | nil =>
    have := encBits_encodes be len hp hk (ops := []) (v := True) (bs := []) Encodes.pure
    simpa [groupOps, serArgs, AllArgs] using this
  | @cons f d v as rs ha hA ih =>
    have hgv : r.get? f = some v := hg (f, v) (by simp)
    have hg' : ∀ q ∈ rs, r.get? q.1 = some q.2 := fun q hq => hg q (by simp [hq])
    by_cases hd : d = .bit
    · subst hd
      cases v <;> first | exact absurd ha id | skip
      rename_i v
      have hal : AllArgs Dom.encodable ((f, .bit) :: as) ((f, .bool v) :: rs) ↔ AllArgs Dom.encodable as rs := by
        simp [AllArgs, Dom.encodable]
      simp only [groupOps, serArgs]
      by_cases h8 : p.length = 8
      · rw [if_pos h8, if_pos (by rw [← hp.length]; exact h8)]
        refine (encBits_encodes be len hp hk ?_).congr_valid hal.symm
        exact ih hg' _ _ ⟨rfl, ⟨v, hgv, rfl⟩, trivial⟩ (by simp)
      · rw [if_neg h8, if_neg (by rw [← hp.length]; exact h8)]
        refine (ih hg' _ _ ?_ (by simp; omega)).congr_valid hal.symm
        have := hp.snoc hgv
        rwa [Nat.zero_add] at this
    · rw [serArgs_nonbit hd, groupOps_nonbit hd, List.append_assoc]
      refine encBits_encodes be len hp hk ?_
      show Encodes len TableErr (d.encodable v ∧ AllArgs Dom.encodable as rs) _
        (encField be len d.ft (r.get? f) >>= fun _ => encOps be len r (groupOps as []))
      rw [hgv]
      exact (encField_encodes be len d v hd ha).bind (y := fun _ => encOps be len r (groupOps as []))
        (ih hg' [] [] trivial (by simp))

theorem decArgs_ser {E : DEnv} (hG : E.Good) (r : Rec) (as : List (Fld × Dom)) (rs : Rec) (hA : HasArgs as rs)
    (hg : ∀ q ∈ rs, r.get? q.1 = some q.2) (he : AllArgs Dom.encodable as rs) (hf : AllArgs Dom.faithful as rs)
    (p : List (Fld × Nat)) (bl : List Bool) (hp : PendOK r 0 p bl) (hk : p.length ≤ 8) :
    DecodesTo E (decOps E (groupOps as p)) (serArgs as rs bl) (pendRec p bl ++ rs) := by
  induction hA generalizing p bl with
  | nil =>
    have := decBits_ser hG hp hk (ops := []) (bs := []) (w := []) (DecodesTo.pure _)
    simpa [groupOps, serArgs] using this
  | @cons f d v as rs ha hA ih =>
    have hgv : r.get? f = some v := hg (f, v) (by simp)
    have hg' : ∀ q ∈ rs, r.get? q.1 = some q.2 := fun q hq => hg q (by simp [hq])
    by_cases hd : d = .bit
    · subst hd
      cases v <;> first | exact absurd ha id | skip
      rename_i v
      have hv : v = 0 ∨ v = 1 := hf.1
      have hnorm : (Val.bool (if decide (v ≠ 0) then 1 else 0)) = Val.bool v := by
        rcases hv with rfl | rfl <;> rfl
      simp only [groupOps, serArgs]
      by_cases h8 : p.length = 8
      · rw [if_pos h8, if_pos (by rw [← hp.length]; exact h8)]
        refine decBits_ser hG hp hk ?_
        have := ih hg' he.2 hf.2 [(f, 0)] [decide (v ≠ 0)] ⟨rfl, ⟨v, hgv, rfl⟩, trivial⟩ (by simp)
        simp only [pendRec, List.zipWith_cons_cons, List.zipWith_nil_left, List.singleton_append] at this
        rwa [hnorm] at this
      · rw [if_neg h8, if_neg (by rw [← hp.length]; exact h8)]
        have hs := hp.snoc hgv
        rw [Nat.zero_add] at hs
        have := ih hg' he.2 hf.2 _ _ hs (by simp; omega)
        rw [pendRec_snoc hp.length, hnorm] at this
        simpa using this
    · rw [serArgs_nonbit hd, groupOps_nonbit hd, List.append_assoc]
      refine decBits_ser hG hp hk ?_
      show DecodesTo E (decOp E (.field d.ft f) >>= fun x => decOps E (groupOps as []) >>= fun y => Pure.pure (x ++ y)) _ _
      refine DecodesTo.bind (a := [(f, v)]) ?_ ?_
      · exact DecodesTo.map (fun v => [(f, v)]) (decField_ser hG d v hd ha he.1 hf.1)
      · exact DecodesTo.map (fun y => [(f, v)] ++ y) (ih hg' he.2 hf.2 [] [] trivial (by simp))

theorem decOps_safe {E : DEnv} (hE : E.len ≤ E.mem.length) (hB : E.len ≤ 2 ^ 30) (ops : List Op) (s : DState)
    (hs : s.off ≤ E.len) : SafeRes E DecErr 0 s (decOps E ops s) := by
  induction ops generalizing s with
  | nil => exact SafeRes.pure _ hs
  | cons o ops ih =>
    refine SafeRes.bind (m₁ := 0) (m₂ := 0) ?_ (fun a s1 _ _ h => SafeRes.map _ (ih s1 h))
    cases o with
    | field t f => exact SafeRes.weaken (Nat.zero_le _) (SafeRes.map _ (decField_safe hE hB t s hs))
    | bits bs => exact SafeRes.weaken (Nat.zero_le _) (SafeRes.map _ (SafeRes.dec8 hE DecErr.bad s))

/-! ### the struct's fields by name -/

theorem HasArgs.fst_eq {as : List (Fld × Dom)} {r : Rec} (h : HasArgs as r) : r.map (·.1) = as.map (·.1) := by
  induction h with
  | nil => rfl
  | cons _ _ ih => simp [ih]

theorem get?_of_nodup {r : Rec} (h : (r.map (·.1)).Nodup) : ∀ q ∈ r, r.get? q.1 = some q.2 := by
  induction r with
  | nil => intro q hq; cases hq
  | cons a r ih =>
    intro q hq
    rw [List.map_cons, List.nodup_cons] at h
    rcases List.mem_cons.mp hq with rfl | hq
    · simp [Rec.get?]
    · have hne : a.1 ≠ q.1 := fun e => h.1 (e ▸ List.mem_map_of_mem hq)
      have := ih h.2 q hq
      simp only [Rec.get?, List.find?_cons, hne, decide_false] at this ⊢
      exact this

set_option maxRecDepth 20000 in
theorem protocol_args_nodup : ∀ p ∈ protocol, (p.args.map (·.1)).Nodup := by decide +kernel
set_option maxRecDepth 20000 in
theorem protocol_ids_nodup : (protocol.map Proto.id).Nodup := by decide +kernel

theorem switch_map {α : Type} (g : Proto → α) (l : List Proto) (hn : (l.map Proto.id).Nodup) :
    (∀ p ∈ l, switch p.id (l.map fun p => (p.id, g p)) = some (g p)) ∧
    (∀ id, (∀ p ∈ l, p.id ≠ id) → switch id (l.map fun p => (p.id, g p)) = none) := by
  induction l with
  | nil => exact ⟨(fun p hp => by cases hp), (fun id _ => rfl)⟩
  | cons a l ih =>
    rw [List.map_cons, List.nodup_cons] at hn
    obtain ⟨ih1, ih2⟩ := ih hn.2
    constructor
    · intro p hp
      rcases List.mem_cons.mp hp with rfl | hp
      · simp [switch]
      · have hne : a.id ≠ p.id := fun e => hn.1 (by rw [e]; exact List.mem_map_of_mem hp)
        have := ih1 p hp
        simp only [switch, List.map_cons, List.find?_cons, hne, decide_false] at this ⊢
        exact this
    · intro id h
      have := ih2 id (fun p hp => h p (by simp [hp]))
      have hne := h a (by simp)
      simp only [switch, List.map_cons, List.find?_cons, hne, decide_false] at this ⊢
      exact this

theorem enc_switch {p : Proto} (hp : p ∈ protocol) : switch p.id encTableOps = some (groupOps p.args []) := by
  rw [encTableOps_eq]; exact (switch_map _ _ protocol_ids_nodup).1 p hp
theorem dec_switch {p : Proto} (hp : p ∈ protocol) : switch p.id decTableOps = some (groupOps p.args []) := by
  rw [decTableOps_eq]; exact (switch_map _ _ protocol_ids_nodup).1 p hp
theorem enc_switch_none {id : UInt32} (h : ∀ p ∈ protocol, p.id ≠ id) : switch id encTableOps = none := by
  rw [encTableOps_eq]; exact (switch_map _ _ protocol_ids_nodup).2 id h
theorem dec_switch_none {id : UInt32} (h : ∀ p ∈ protocol, p.id ≠ id) : switch id decTableOps = none := by
  rw [decTableOps_eq]; exact (switch_map _ _ protocol_ids_nodup).2 id h

end Rmq
