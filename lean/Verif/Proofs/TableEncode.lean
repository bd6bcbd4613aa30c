import Verif.Proofs.Encode
/-! The table encoder writes the specified wire layout. -/
namespace Rmq

/-- The statuses amqp_encode_table can fail with. -/
def TableErr (e : Int) : Prop := e = St.TABLE_TOO_BIG ∨ e = St.BAD_AMQP_DATA ∨ e = St.INVALID_PARAMETER

theorem TableErr.tooBig : TableErr St.TABLE_TOO_BIG := Or.inl rfl
theorem TableErr.bad : TableErr St.BAD_AMQP_DATA := Or.inr (Or.inl rfl)
theorem TableErr.inval : TableErr St.INVALID_PARAMETER := Or.inr (Or.inr rfl)

theorem beBytes1 (v : UInt8) : beBytes 1 v.toNat = [v] := by simp [beBytes]

/-- kind octet, then payload -/
theorem Encodes.kinded {len : Nat} {v : Prop} {bs : Bytes} {x : M EState Unit} (k : UInt8)
    (h : Encodes len TableErr v bs x) :
    Encodes len TableErr v (k :: bs)
      (M.orFail St.BAD_AMQP_DATA (Rmq.enc8 len k) >>= fun _ => x) := by
  have h1 := Encodes.enc8 (len := len) (errs := TableErr) (e := St.BAD_AMQP_DATA) TableErr.bad k
  rw [beBytes1] at h1
  exact (h1.bind (y := fun _ => x) h).congr_valid (by simp)

theorem Encodes.longstr {len : Nat} (be : Bool) (b : Bytes) :
    Encodes len TableErr True (serLong b)
      (M.orFail St.TABLE_TOO_BIG (Rmq.enc32 be len (UInt32.ofNat b.length)) >>= fun _ =>
       M.orFail St.TABLE_TOO_BIG (Rmq.encBytes len b)) := by
  have h1 := Encodes.enc32 (len := len) (errs := TableErr) (e := St.TABLE_TOO_BIG) TableErr.tooBig be
    (UInt32.ofNat b.length)
  have hb : beBytes 4 (UInt32.ofNat b.length).toNat = beBytes 4 b.length := by
    rw [UInt32.toNat_ofNat']; exact beBytes_mod 4 b.length
  rw [hb] at h1
  exact (h1.bind (y := fun _ => M.orFail St.TABLE_TOO_BIG (Rmq.encBytes len b))
    (Encodes.encBytes TableErr.tooBig b)).congr_valid (by simp)

mutual
theorem encFV_encodes (be : Bool) (len : Nat) (v : FV) :
    Encodes len TableErr (kindsOK v) (serFV v) (encFV be len v) := by
  cases v with
  | boolean v =>
    simp only [encFV, serFV, kindsOK]
    have h := Encodes.enc8 (len := len) (errs := TableErr) (e := St.TABLE_TOO_BIG) TableErr.tooBig
      (if v ≠ 0 then 1 else 0)
    rw [beBytes1] at h
    refine Encodes.congr_bytes ?_ (Encodes.kinded Kind.BOOLEAN h)
    by_cases hv : v = 0 <;> simp [hv, Kind.BOOLEAN]
  | i8 v => simp only [encFV, serFV, kindsOK]; exact Encodes.kinded _ (Encodes.enc8 TableErr.tooBig _)
  | u8 v => simp only [encFV, serFV, kindsOK]; exact Encodes.kinded _ (Encodes.enc8 TableErr.tooBig _)
  | i16 v => simp only [encFV, serFV, kindsOK]; exact Encodes.kinded _ (Encodes.enc16 TableErr.tooBig _ _)
  | u16 v => simp only [encFV, serFV, kindsOK]; exact Encodes.kinded _ (Encodes.enc16 TableErr.tooBig _ _)
  | i32 v => simp only [encFV, serFV, kindsOK]; exact Encodes.kinded _ (Encodes.enc32 TableErr.tooBig _ _)
  | u32 v => simp only [encFV, serFV, kindsOK]; exact Encodes.kinded _ (Encodes.enc32 TableErr.tooBig _ _)
  | i64 v => simp only [encFV, serFV, kindsOK]; exact Encodes.kinded _ (Encodes.enc64 TableErr.tooBig _ _)
  | u64 v => simp only [encFV, serFV, kindsOK]; exact Encodes.kinded _ (Encodes.enc64 TableErr.tooBig _ _)
  | f32 v => simp only [encFV, serFV, kindsOK]; exact Encodes.kinded _ (Encodes.enc32 TableErr.tooBig _ _)
  | f64 v => simp only [encFV, serFV, kindsOK]; exact Encodes.kinded _ (Encodes.enc64 TableErr.tooBig _ _)
  | decimal d v =>
    simp only [encFV, serFV, kindsOK]
    exact Encodes.kinded _ (((Encodes.enc8 TableErr.tooBig d).bind
      (y := fun _ => M.orFail St.TABLE_TOO_BIG (enc32 be len v)) (Encodes.enc32 TableErr.tooBig be v)).congr_valid (by simp))
  | utf8 b => simp only [encFV, serFV, kindsOK]; exact Encodes.kinded _ (Encodes.longstr be b)
  | bytes b => simp only [encFV, serFV, kindsOK]; exact Encodes.kinded _ (Encodes.longstr be b)
  | array vs =>
    simp only [encFV, serFV, kindsOK]
    exact Encodes.kinded _ (Encodes.sized TableErr.tooBig be (encFVs_encodes be len vs))
  | timestamp v => simp only [encFV, serFV, kindsOK]; exact Encodes.kinded _ (Encodes.enc64 TableErr.tooBig _ _)
  | table es =>
    simp only [encFV, serFV, kindsOK]
    exact Encodes.kinded _ (Encodes.sized TableErr.tooBig be (encEntries_encodes be len es))
  | void =>
    simp only [encFV, serFV, kindsOK]
    exact (Encodes.enc8 TableErr.bad Kind.VOID).congr_bytes (beBytes1 _)
  | other k =>
    simp only [encFV, serFV, kindsOK]
    exact Encodes.kinded _ (Encodes.fail TableErr.inval [])
theorem encFVs_encodes (be : Bool) (len : Nat) (vs : List FV) :
    Encodes len TableErr (kindsOKs vs) (serFVs vs) (encFVs be len vs) := by
  cases vs with
  | nil => simp only [encFVs, serFVs, kindsOKs]; exact Encodes.pure
  | cons v vs =>
    simp only [encFVs, serFVs, kindsOKs]
    exact (encFV_encodes be len v).bind (y := fun _ => encFVs be len vs) (encFVs_encodes be len vs)
theorem encEntry_encodes (be : Bool) (len : Nat) (e : Entry) :
    Encodes len TableErr (kindsOKE e) (serEntry e) (encEntry be len e) := by
  cases e with
  | mk k v =>
    simp only [encEntry, serEntry, kindsOKE, serShort]
    have h1 := Encodes.enc8 (len := len) (errs := TableErr) (e := St.TABLE_TOO_BIG) TableErr.tooBig (UInt8.ofNat k.length)
    have hb : beBytes 1 (UInt8.ofNat k.length).toNat = beBytes 1 k.length := by
      rw [UInt8.toNat_ofNat']; exact beBytes_mod 1 k.length
    rw [hb] at h1
    have h2 := (Encodes.encBytes (len := len) (errs := TableErr) TableErr.tooBig k).bind
      (y := fun _ => encFV be len v) (encFV_encodes be len v)
    refine Encodes.congr_bytes ?_ ((h1.bind (y := fun _ => _) h2).congr_valid (by simp))
    simp
theorem encEntries_encodes (be : Bool) (len : Nat) (es : List Entry) :
    Encodes len TableErr (kindsOKEs es) (serEntries es) (encEntries be len es) := by
  cases es with
  | nil => simp only [encEntries, serEntries, kindsOKEs]; exact Encodes.pure
  | cons e es =>
    simp only [encEntries, serEntries, kindsOKEs]
    exact (encEntry_encodes be len e).bind (y := fun _ => encEntries be len es) (encEntries_encodes be len es)
end

theorem encTable_encodes (be : Bool) (len : Nat) (es : Table) :
    Encodes len TableErr (kindsOKEs es) (serTable es) (encTable be len es) :=
  Encodes.sized TableErr.tooBig be (encEntries_encodes be len es)

theorem serLong_ne (b : Bytes) : serLong b ≠ [] := by simp [serLong, beBytes]
theorem serTable_ne (es : Table) : serTable es ≠ [] := serLong_ne _

end Rmq
