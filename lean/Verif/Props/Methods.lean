import Verif.Proofs.Properties
import Verif.Proofs.FVEq
/-!
# Properties C10–C15: method arguments and content properties
-/
namespace Rmq

/-! ## C10 -/

/-- C10 (layout): encoding the arguments of any protocol method into a buffer that is large enough writes exactly the
protocol's wire form of those arguments at the start of the buffer and returns its length; into a smaller buffer it fails. -/
theorem C10_method_wire_layout (p : Proto) (hp : p ∈ protocol) (r : Rec) (hr : HasArgs p.args r)
    (he : AllArgs Dom.encodable p.args r) (be : Bool) (mem : Bytes) (len : Nat) (hlen : len ≤ mem.length) :
    ((serArgs p.args r []).length ≤ len →
      encMethod be mem len p.id r = .ok (serArgs p.args r []).length
        ⟨serArgs p.args r [] ++ mem.drop (serArgs p.args r []).length, (serArgs p.args r []).length⟩) ∧
    (len < (serArgs p.args r []).length → ∃ e s, encMethod be mem len p.id r = .err e s) := by
  have hE := encArgs_encodes be len r p.args r hr
    (get?_of_nodup (by rw [hr.fst_eq]; exact protocol_args_nodup p hp)) [] [] trivial (by simp) ⟨mem, 0⟩ hlen
  constructor
  · intro h
    have := hE.1 he (by simpa using h)
    simp only [encMethod, enc_switch hp, this]
    simp [splice]
  · intro h
    rcases hE.2 (Or.inr (by simpa using h)) with ⟨e, s', h1, _⟩ | ⟨h1, _⟩
    · exact ⟨e, s', by simp only [encMethod, enc_switch hp, h1]⟩
    · rw [h1] at h; simp at h

/-- C10 (round trip): if encoding the arguments of a protocol method succeeds, decoding the bytes written gives back exactly
those arguments and consumes exactly the bytes written, also on a host of the other endianness. -/
theorem C10_method_round_trip (p : Proto) (hp : p ∈ protocol) (r : Rec) (hr : HasArgs p.args r)
    (hf : AllArgs Dom.faithful p.args r) (be be' : Bool) (mem : Bytes) (len : Nat) (hlen : len ≤ mem.length)
    (n : Nat) (s : EState) (henc : encMethod be mem len p.id r = .ok n s) (hn : n ≤ 2 ^ 30)
    (alloc : Nat → Bool) (hA : ∀ k, alloc k = true) (k : Nat) :
    ∃ c, decMethod ⟨s.mem, n, be', alloc⟩ p.id k = .ok r ⟨n, c⟩ := by
  have hg := get?_of_nodup (r := r) (by rw [hr.fst_eq]; exact protocol_args_nodup p hp)
  have hE := encArgs_encodes be len r p.args r hr hg [] [] trivial (by simp) ⟨mem, 0⟩ hlen
  by_cases hv : AllArgs Dom.encodable p.args r ∧ (serArgs p.args r []).length ≤ len
  · have h1 := hE.1 hv.1 (by simpa using hv.2)
    simp only [encMethod, enc_switch hp, h1] at henc
    simp only [Res.ok.injEq, Nat.zero_add] at henc
    obtain ⟨rfl, rfl⟩ := henc
    have hG : DEnv.Good ⟨splice mem 0 (serArgs p.args r []), (serArgs p.args r []).length, be', alloc⟩ :=
      ⟨by simp [splice], hn, hA⟩
    have hD := DecodesTo.bind (f := fun _ => decOps _ (groupOps p.args [])) (allocate_ok hG St.NO_MEMORY)
      (decArgs_ser hG r p.args r hr hg hv.1 hf [] [] trivial (by simp))
    obtain ⟨c, hc⟩ := hD ⟨0, k⟩ (by simp [splice]) (by simp)
    refine ⟨c, ?_⟩
    simp only [decMethod, dec_switch hp]
    rw [hc]; simp [pendRec]
  · have h1 : ¬ AllArgs Dom.encodable p.args r ∨ len < 0 + (serArgs p.args r []).length := by
      by_cases h : AllArgs Dom.encodable p.args r
      · exact Or.inr (by have : ¬ ((serArgs p.args r []).length ≤ len) := fun hc => hv ⟨h, hc⟩
                         omega)
      · exact Or.inl h
    rcases hE.2 h1 with ⟨e, s', h2, _⟩ | ⟨h2, h3, _⟩
    · simp only [encMethod, enc_switch hp, h2] at henc; cases henc
    · exact absurd ⟨h3, by simp [h2]⟩ hv

/-- The C type a domain is held in. -/
def Dom.ctype : Dom → CType
  | .octet => .octet | .short => .short | .long => .long | .longlong => .longlong
  | .shortstr => .bytes | .longstr => .bytes | .table => .table | .bit => .bool

/-- C10 (structs): the argument struct of every method has exactly the protocol's arguments, with the C types of their
domains — so decoding assigns every field of the struct it returns. -/
theorem C10_structs_are_the_arguments :
    structTable = protocol.map fun p => (p.id, p.args.map fun a => (a.1, a.2.ctype)) := by decide +kernel

/-- A sample: queue.declare with flags and an argument table. -/
def sampleDeclare : Rec := [(.ticket, .u16 0), (.queue, .bytes [113, 49]), (.passive, .bool 0), (.durable, .bool 1),
  (.exclusive, .bool 0), (.auto_delete, .bool 1), (.nowait, .bool 0), (.arguments, .table [.mk [120] (.i32 5)])]
def declareProto : Proto := protocol[30]
example : declareProto.id = 0x0032000A ∧ declareProto ∈ protocol := ⟨by decide +kernel, List.getElem_mem _⟩
theorem sampleDeclare_args : HasArgs declareProto.args sampleDeclare := by
  repeat' first | exact HasArgs.nil | refine HasArgs.cons trivial ?_
theorem sampleDeclare_faithful : AllArgs Dom.faithful declareProto.args sampleDeclare := by
  simp [declareProto, sampleDeclare, protocol, AllArgs, Dom.faithful, representableTable, representableEs, representableE,
    representable, serEntries, serEntry, serFV, serShort, beBytes, nestingEs, nestingE, nesting]
theorem sampleDeclare_enc : AllArgs Dom.encodable declareProto.args sampleDeclare := by
  simp [declareProto, sampleDeclare, protocol, AllArgs, Dom.encodable, kindsOKEs, kindsOKE, kindsOK]
example : (encMethod false (List.replicate 40 9) 40 0x0032000A sampleDeclare).val? = some 17 ∧
    ((encMethod false (List.replicate 40 9) 40 0x0032000A sampleDeclare).state?.map (·.mem.take 17)) =
      some [0, 0, 2, 113, 49, 10, 0, 0, 0, 7, 1, 120, 73, 0, 0, 0, 5] := by decide +kernel

/-! ## C11 -/

/-- C11: decoding arbitrary bytes as the arguments of an arbitrary method id neither reads out of bounds nor runs forever,
and fails only with BAD_AMQP_DATA, NO_MEMORY or UNKNOWN_METHOD. -/
theorem C11_decode_method_safe (E : DEnv) (hmem : E.len ≤ E.mem.length) (hsize : E.len ≤ 2 ^ 30) (id : UInt32) (k : Nat) :
    (∃ r s, decMethod E id k = .ok r s ∧ s.off ≤ E.len) ∨
    (∃ e s, decMethod E id k = .err e s ∧
      (e = St.BAD_AMQP_DATA ∨ e = St.NO_MEMORY ∨ e = St.UNKNOWN_METHOD)) := by
  unfold decMethod
  cases h : switch id decTableOps with
  | none => exact Or.inr ⟨_, _, rfl, Or.inr (Or.inr rfl)⟩
  | some ops =>
    have hS : SafeRes E DecErr 0 ⟨0, k⟩ ((M.orFail St.NO_MEMORY (allocate E) >>= fun _ => decOps E ops) ⟨0, k⟩) :=
      SafeRes.bind (m₁ := 0) (m₂ := 0) (SafeRes.allocate DecErr.mem _ (Nat.zero_le _))
        (fun _ s1 _ _ h1 => decOps_safe hmem hsize ops s1 h1)
    dsimp only
    revert hS
    generalize (M.orFail St.NO_MEMORY (allocate E) >>= fun _ => decOps E ops) ⟨0, k⟩ = R
    intro hS
    cases R with
    | ok r s => exact Or.inl ⟨r, s, rfl, hS.2⟩
    | err e s => exact Or.inr ⟨e, s, rfl, by rcases hS with h | h <;> simp [h]⟩
    | ub => exact hS.elim
    | fuel => exact hS.elim

/-- A truncated basic.deliver is refused. -/
example : (decMethod ⟨[5, 97, 98], 3, false, fun _ => true⟩ 0x003C003C 0).errCode? = some St.BAD_AMQP_DATA := by
  decide +kernel

/-! ## C12 -/

/-- Upper case, with `-` as `_`. -/
def cName (s : String) : List Char := s.toList.map fun c => if c = '-' then '_' else c.toUpper

theorem nameTable_keys : nameTable.map (·.1) = protocol.map Proto.id := by decide +kernel
theorem nameTable_names : nameTable.map (·.2.toList) =
    protocol.map fun p => "AMQP_".toList ++ cName p.clsName ++ ['_'] ++ cName p.name ++ "_METHOD".toList := by decide +kernel

theorem nameTable_get (p : Proto) (hp : p ∈ protocol) : (methodName p.id).map String.toList =
    some ("AMQP_".toList ++ cName p.clsName ++ ['_'] ++ cName p.name ++ "_METHOD".toList) := by
  have : ∀ p ∈ protocol, (methodName p.id).map String.toList =
    some ("AMQP_".toList ++ cName p.clsName ++ ['_'] ++ cName p.name ++ "_METHOD".toList) := by decide +kernel
  exact this p hp

theorem methodName_none {id : UInt32} (h : ∀ p ∈ protocol, p.id ≠ id) : methodName id = none := by
  have hk : ∀ q ∈ nameTable, q.1 ≠ id := by
    intro q hq e
    have : q.1 ∈ nameTable.map (·.1) := List.mem_map_of_mem hq
    rw [nameTable_keys] at this
    obtain ⟨p, hp, hpe⟩ := List.mem_map.mp this
    exact h p hp (hpe.trans e)
  unfold methodName switch
  rw [List.find?_eq_none.mpr (fun q hq => by simpa using hk q hq)]; rfl

/-- C12: for the methods of the protocol the name is the C macro of the method, encoding and decoding know the method, and
content is reported exactly for the methods that carry content. -/
theorem C12_known_methods (p : Proto) (hp : p ∈ protocol) :
    ((methodName p.id).map String.toList =
      some ("AMQP_".toList ++ cName p.clsName ++ ['_'] ++ cName p.name ++ "_METHOD".toList)) ∧
    methodHasContent p.id = p.content ∧
    (∀ be mem len r, (encMethod be mem len p.id r).errCode? ≠ some St.UNKNOWN_METHOD ∨ ¬ HasArgs p.args r ∨ mem.length < len) ∧
    (∀ E k, E.len ≤ E.mem.length → E.len ≤ 2 ^ 30 → (decMethod E p.id k).errCode? ≠ some St.UNKNOWN_METHOD) := by
  refine ⟨nameTable_get p hp, ?_, ?_, ?_⟩
  · have : ∀ p ∈ protocol, methodHasContent p.id = p.content := by decide +kernel
    exact this p hp
  · intro be mem len r
    by_cases hr : HasArgs p.args r
    · by_cases hlen : len ≤ mem.length
      · left
        have hE := encArgs_encodes be len r p.args r hr
          (get?_of_nodup (by rw [hr.fst_eq]; exact protocol_args_nodup p hp)) [] [] trivial (by simp) ⟨mem, 0⟩ hlen
        simp only [encMethod, enc_switch hp]
        by_cases hv : AllArgs Dom.encodable p.args r ∧ 0 + (serArgs p.args r []).length ≤ len
        · rw [hE.1 hv.1 hv.2]; simp [Res.errCode?]
        · have h1 : ¬ AllArgs Dom.encodable p.args r ∨ len < 0 + (serArgs p.args r []).length := by
            by_cases h : AllArgs Dom.encodable p.args r
            · exact Or.inr (by have : ¬ (0 + (serArgs p.args r []).length ≤ len) := fun hc => hv ⟨h, hc⟩
                               omega)
            · exact Or.inl h
          rcases hE.2 h1 with ⟨e, s', h2, h3, _⟩ | ⟨_, _, h2⟩
          · rw [h2]
            rcases h3 with h | h | h <;> simp [Res.errCode?, h, St.TABLE_TOO_BIG, St.BAD_AMQP_DATA,
              St.INVALID_PARAMETER, St.UNKNOWN_METHOD]
          · rw [h2]; simp [Res.errCode?]
      · exact Or.inr (Or.inr (by omega))
    · exact Or.inr (Or.inl hr)
  · intro E k hE hB
    simp only [decMethod, dec_switch hp]
    have hS : SafeRes E DecErr 0 ⟨0, k⟩ ((M.orFail St.NO_MEMORY (allocate E) >>= fun _ =>
        decOps E (groupOps p.args [])) ⟨0, k⟩) :=
      SafeRes.bind (m₁ := 0) (m₂ := 0) (SafeRes.allocate DecErr.mem _ (Nat.zero_le _))
        (fun _ s1 _ _ h1 => decOps_safe hE hB _ s1 h1)
    revert hS
    generalize (M.orFail St.NO_MEMORY (allocate E) >>= fun _ => decOps E (groupOps p.args [])) ⟨0, k⟩ = R
    intro hS
    cases R with
    | ok r s => simp [Res.errCode?]
    | err e s => rcases hS with h | h <;> simp [Res.errCode?, h, St.BAD_AMQP_DATA, St.NO_MEMORY, St.UNKNOWN_METHOD]
    | ub => simp [Res.errCode?]
    | fuel => simp [Res.errCode?]

/-- C12: every other 32-bit method id is unknown to all of them. -/
theorem C12_unknown_methods (id : UInt32) (h : ∀ p ∈ protocol, p.id ≠ id) :
    methodName id = none ∧ methodHasContent id = false ∧
    (∀ be mem len r, (encMethod be mem len id r).errCode? = some St.UNKNOWN_METHOD) ∧
    (∀ E k, (decMethod E id k).errCode? = some St.UNKNOWN_METHOD) := by
  refine ⟨methodName_none h, ?_, ?_, ?_⟩
  · have hsub : ∀ c ∈ contentTable, ∃ p ∈ protocol, p.id = c := by decide +kernel
    unfold methodHasContent
    rw [Bool.eq_false_iff]
    intro hc
    obtain ⟨p, hp, he⟩ := hsub id (by simpa using hc)
    exact h p hp he
  · intro be mem len r; simp only [encMethod, enc_switch_none h]; rfl
  · intro E k; simp only [decMethod, dec_switch_none h]; rfl

/-- C12: no two methods share an id or a name. -/
theorem C12_names_distinct : (protocol.map Proto.id).Nodup ∧ (nameTable.map (·.2)).Nodup := by
  refine ⟨protocol_ids_nodup, ?_⟩
  have h : (nameTable.map (·.2.toList)).Nodup := by decide +kernel
  have e : nameTable.map (·.2.toList) = (nameTable.map (·.2)).map String.toList := by simp
  rw [e] at h
  exact (List.pairwise_map.mp h).imp (fun hab e => hab (by rw [e]))

example : ∃ id : UInt32, ∀ p ∈ protocol, p.id ≠ id := ⟨0x003C0065, by decide +kernel⟩

/-! ## C13 -/

theorem encProp_switch {c : UInt16 × List (Nat × Fld × Dom)} (hc : c ∈ propClasses) :
    switch c.1 encPropTable = some (propOps c.2) := by
  rw [encPropTable_eq]; exact (switch_mem _ _ propClasses_nodup).1 c hc
theorem decProp_switch {c : UInt16 × List (Nat × Fld × Dom)} (hc : c ∈ propClasses) :
    switch c.1 decPropTable = some (propOps c.2) := by
  rw [decPropTable_eq]; exact (switch_mem _ _ propClasses_nodup).1 c hc

theorem encProperties_exact {c : UInt16 × List (Nat × Fld × Dom)} (hc : c ∈ propClasses) (be : Bool) {flags : UInt32}
    (hw : OneWord flags) (r : Rec) (hp : PropsOK (fun _ _ => True) flags r c.2) (mem : Bytes) (len : Nat)
    (hlen : len ≤ mem.length) :
    (FlaggedEncodable flags r c.2 → 2 + (serProps flags r c.2).length ≤ len →
      encProperties be mem len c.1 flags r = .ok (2 + (serProps flags r c.2).length)
        ⟨splice mem 0 (beBytes 2 flags.toNat ++ serProps flags r c.2), 2 + (serProps flags r c.2).length⟩) ∧
    (¬ FlaggedEncodable flags r c.2 ∨ len < 2 + (serProps flags r c.2).length →
      ∃ e s, encProperties be mem len c.1 flags r = .err e s ∧ TableErr e) := by
  have hE := (encFlags_encodes be len hw).bind (y := fun _ => encProps be len flags r (propOps c.2))
    (encProps_encodes be len flags r c.2 (propClasses_ok c hc) hp) ⟨mem, 0⟩ hlen
  simp only [List.length_append, beBytes_length, true_and, Nat.zero_add] at hE
  have key : encProperties be mem len c.1 flags r =
      match (encFlags be len 3 flags >>= fun _ => encProps be len flags r (propOps c.2)) ⟨mem, 0⟩ with
      | .ok () s => .ok s.off s
      | .err e s => .err e s
      | .ub => .ub
      | .fuel => .fuel := by
    unfold encProperties
    rw [M.bind_def]
    cases encFlags be len 3 flags ⟨mem, 0⟩ with
    | ok a s => cases a; simp only [encProp_switch hc]; rfl
    | err e s => rfl
    | ub => rfl
    | fuel => rfl
  rw [key]
  constructor
  · intro h1 h2; rw [hE.1 h1 h2]
  · intro h
    rcases hE.2 h with ⟨e, s, h1, h2, _⟩ | ⟨h1, _⟩
    · exact ⟨e, s, by rw [h1], h2⟩
    · have := congrArg List.length h1
      simp [beBytes_length] at this

/-- C13 (layout): encoding the flagged properties of a class writes the 16-bit flag word and then each flagged property in
order, if it fits, and fails otherwise. -/
theorem C13_properties_wire_layout {c : UInt16 × List (Nat × Fld × Dom)} (hc : c ∈ propClasses) (be : Bool)
    (flags : UInt32) (hw : flags.toNat < 65536 ∧ ¬ flagSet flags 0) (r : Rec)
    (hp : PropsOK Dom.encodable flags r c.2) (mem : Bytes) (len : Nat) (hlen : len ≤ mem.length) :
    (2 + (serProps flags r c.2).length ≤ len →
      encProperties be mem len c.1 flags r = .ok (2 + (serProps flags r c.2).length)
        ⟨beBytes 2 flags.toNat ++ serProps flags r c.2 ++ mem.drop (2 + (serProps flags r c.2).length),
          2 + (serProps flags r c.2).length⟩) ∧
    (len < 2 + (serProps flags r c.2).length → ∃ e s, encProperties be mem len c.1 flags r = .err e s) := by
  have hX := encProperties_exact hc be hw r (fun p hm hs => by
    obtain ⟨v, h1, h2, _⟩ := hp p hm hs; exact ⟨v, h1, h2, trivial⟩) mem len hlen
  have hfe : FlaggedEncodable flags r c.2 := fun p hm hs v hv => by
    obtain ⟨v', h1, _, h2⟩ := hp p hm hs
    rw [hv] at h1; cases h1; exact h2
  constructor
  · intro h
    rw [hX.1 hfe h]
    simp [splice, beBytes_length]
  · intro h
    obtain ⟨e, s, h1, _⟩ := hX.2 (Or.inr h)
    exact ⟨e, s, h1⟩

/-- C13 (round trip): for any set of flagged properties with encodable, faithful values, what `amqp_encode_properties` wrote,
`amqp_decode_properties` reads back: the same flags and, for each flagged property in order, an equal value. -/
theorem C13_properties_round_trip {c : UInt16 × List (Nat × Fld × Dom)} (hc : c ∈ propClasses) (be be' : Bool)
    (flags : UInt32) (hw : flags.toNat < 65536 ∧ ¬ flagSet flags 0) (r : Rec)
    (hp : PropsOK Dom.faithful flags r c.2) (mem : Bytes) (len : Nat) (hlen : len ≤ mem.length) (n : Nat) (s : EState)
    (henc : encProperties be mem len c.1 flags r = .ok n s) (hn : n ≤ 2 ^ 30)
    (alloc : Nat → Bool) (hA : ∀ k, alloc k = true) (k : Nat) :
    ∃ k', decProperties ⟨s.mem, n, be', alloc⟩ c.1 k = .ok (flags, flaggedProps flags r c.2) ⟨n, k'⟩ := by
  have hX := encProperties_exact hc be hw r (fun p hm hs => by
    obtain ⟨v, h1, h2, _⟩ := hp p hm hs; exact ⟨v, h1, h2, trivial⟩) mem len hlen
  by_cases hv : FlaggedEncodable flags r c.2 ∧ 2 + (serProps flags r c.2).length ≤ len
  · rw [hX.1 hv.1 hv.2, Res.ok.injEq] at henc
    obtain ⟨rfl, rfl⟩ := henc
    have hG : DEnv.Good ⟨splice mem 0 (beBytes 2 flags.toNat ++ serProps flags r c.2),
        2 + (serProps flags r c.2).length, be', alloc⟩ :=
      ⟨by simp [splice, beBytes_length], hn, hA⟩
    have hD := DecodesTo.bind (f := fun flags => match switch c.1 decPropTable with
        | none => M.fail St.UNKNOWN_CLASS
        | some ps => do
          M.orFail St.NO_MEMORY (allocate _)
          let r ← decProps _ flags ps
          pure (flags, r)) (decFlags_ser hG.mem hw) (b₂ := serProps flags r c.2)
        (v := (flags, flaggedProps flags r c.2)) (by
          simp only [decProp_switch hc]
          exact DecodesTo.bind (b₁ := []) (allocate_ok hG St.NO_MEMORY)
            (DecodesTo.map (fun r => (flags, r)) (decProps_ser hG flags r c.2 (propClasses_ok c hc) hp hv.1)))
    obtain ⟨k', hk⟩ := hD ⟨0, k⟩ (by simp [splice]) (by simp [beBytes_length])
    refine ⟨k', ?_⟩
    unfold decProperties
    refine Eq.trans hk ?_
    simp [beBytes_length]
  · have h1 : ¬ FlaggedEncodable flags r c.2 ∨ len < 2 + (serProps flags r c.2).length := by
      by_cases h : FlaggedEncodable flags r c.2
      · exact Or.inr (by have : ¬ (2 + (serProps flags r c.2).length ≤ len) := fun hc => hv ⟨h, hc⟩
                         omega)
      · exact Or.inl h
    obtain ⟨e, s', h2, _⟩ := hX.2 h1
    rw [h2] at henc; cases henc

def sampleProps : Rec := [(.content_type, .bytes [116, 47, 112]), (.headers, .table [.mk [120] (.boolean 1)]),
  (.delivery_mode, .u8 2), (.timestamp, .u64 77)]
def sampleFlags : UInt32 := 0xB040
example : sampleFlags.toNat < 65536 ∧ ¬ flagSet sampleFlags 0 := by decide +kernel
example : (60, basicProps) ∈ propClasses := by simp [propClasses]
example : PropsOK Dom.faithful sampleFlags sampleProps basicProps := by
  intro p hp hs
  have hrep : representableTable [Entry.mk [120] (.boolean 1)] := by
    simp [representableTable, representableEs, representableE, representable, serEntries, serEntry, serFV, serShort, beBytes]
  have h : p ∈ basicProps.filter (fun p => flagSet sampleFlags p.1) := by
    rw [List.mem_filter]; exact ⟨hp, by simpa using hs⟩
  have hf : basicProps.filter (fun p => flagSet sampleFlags p.1) = [(15, .content_type, .shortstr), (13, .headers, .table),
    (12, .delivery_mode, .octet), (6, .timestamp, .longlong)] := by decide +kernel
  rw [hf] at h
  simp only [List.mem_cons, List.not_mem_nil, or_false] at h
  rcases h with rfl | rfl | rfl | rfl
  · exact ⟨_, rfl, trivial, trivial⟩
  · exact ⟨_, rfl, trivial, hrep, by decide +kernel⟩
  · exact ⟨_, rfl, trivial, trivial⟩
  · exact ⟨_, rfl, trivial, trivial⟩
example : (encProperties true (List.replicate 40 9) 40 60 sampleFlags sampleProps).val? = some 23 := by decide +kernel

/-! ## C14 -/

/-- The 16-bit word at offset `o`. -/
def wordAt (mem : Bytes) (o : Nat) : Nat := beVal ((mem.drop o).take 2)

theorem dec16_word {E : DEnv} (hE : E.len ≤ E.mem.length) (o k : Nat) :
    ∃ w : UInt16, w.toNat = wordAt E.mem o ∧
      M.orFailVal St.BAD_AMQP_DATA (dec16 E) ⟨o, k⟩ =
        if o + 2 ≤ E.len then .ok w ⟨o + 2, k⟩ else .err St.BAD_AMQP_DATA ⟨o + 2, k⟩ := by
  by_cases h : o + 2 ≤ E.len
  · have hl : ((E.mem.drop o).take 2).length = 2 := by simp; omega
    refine ⟨UInt16.ofNat (beVal ((E.mem.drop o).take 2)), ?_, ?_⟩
    · rw [UInt16.toNat_ofNat']
      exact Nat.mod_eq_of_lt (by have := beVal_lt ((E.mem.drop o).take 2); rw [hl] at this; exact this)
    · rw [if_pos h]
      simp only [M.orFailVal, dec16, decRaw]
      rw [if_pos h]
      simp only [readAt]
      rw [if_pos (by omega)]
      simp only [d16_spec _ _ hl]
  · have hlt : wordAt E.mem o < 65536 := by
      have h1 := beVal_lt ((E.mem.drop o).take 2)
      have h2 : ((E.mem.drop o).take 2).length ≤ 2 := by simp; omega
      have h3 : 256 ^ ((E.mem.drop o).take 2).length ≤ 256 ^ 2 := Nat.pow_le_pow_right (by omega) h2
      unfold wordAt; omega
    refine ⟨UInt16.ofNat (wordAt E.mem o), ?_, ?_⟩
    · rw [UInt16.toNat_ofNat']; exact Nat.mod_eq_of_lt hlt
    · rw [if_neg h]
      simp only [M.orFailVal, dec16, decRaw]
      rw [if_neg h]

theorem and_one16 {w : UInt16} : (w &&& 1 ≠ 0) ↔ w.toNat % 2 = 1 := by
  rw [ne_eq, ← UInt16.toNat_inj, UInt16.toNat_and]
  show ¬ (w.toNat &&& 1 = 0) ↔ _
  rw [Nat.and_one_is_mod]; omega

/-- When the flag words make the C shift undefined: the first word announces another one, which is present, and that one
either has its top bit set or announces a third one that is present. -/
def BadFlagWords (E : DEnv) : Prop :=
  4 ≤ E.len ∧ wordAt E.mem 0 % 2 = 1 ∧
    (2 ^ 15 ≤ wordAt E.mem 2 ∨ (wordAt E.mem 2 % 2 = 1 ∧ 6 ≤ E.len))

theorem decFlags_cases (E : DEnv) (hE : E.len ≤ E.mem.length) (k : Nat) :
    (BadFlagWords E → decFlags E 3 0 0 ⟨0, k⟩ = .ub) ∧
    (¬ BadFlagWords E → SafeRes E DecErr 0 ⟨0, k⟩ (decFlags E 3 0 0 ⟨0, k⟩)) := by
  obtain ⟨w0, hw0, h0⟩ := dec16_word hE 0 k
  obtain ⟨w1, hw1, h1⟩ := dec16_word hE 2 k
  obtain ⟨w2, hw2, h2⟩ := dec16_word hE 4 k
  have hlt0 : w0.toNat < 65536 := w0.toNat_lt
  have hlt1 : w1.toNat < 65536 := w1.toNat_lt
  simp only [BadFlagWords, ← hw0, ← hw1]
  unfold decFlags
  rw [M.bind_def, h0]
  by_cases hl0 : 0 + 2 ≤ E.len
  rotate_left
  · rw [if_neg hl0]
    exact ⟨fun h => by omega, fun _ => DecErr.bad⟩
  rw [if_pos hl0]
  dsimp only
  rw [if_neg (by omega), if_neg (by unfold INT_MAX; omega)]
  by_cases hb0 : w0 &&& 1 ≠ 0
  rotate_left
  · rw [if_neg hb0]
    have := mt and_one16.mpr hb0
    exact ⟨fun h => by omega, fun _ => ⟨by simp, by simpa using hl0⟩⟩
  rw [if_pos hb0]
  have hb0' := and_one16.mp hb0
  unfold decFlags
  rw [M.bind_def, h1]
  by_cases hl1 : 2 + 2 ≤ E.len
  rotate_left
  · rw [if_neg hl1]
    exact ⟨fun h => by omega, fun _ => DecErr.bad⟩
  rw [if_pos hl1]
  dsimp only
  rw [if_neg (by omega)]
  by_cases hbig : w1.toNat * 2 ^ ((0 + 1) * 16) > INT_MAX
  · rw [if_pos hbig]
    refine ⟨fun _ => rfl, fun h => absurd ⟨by omega, hb0', Or.inl ?_⟩ h⟩
    unfold INT_MAX at hbig; omega
  rw [if_neg hbig]
  have hsmall : w1.toNat < 2 ^ 15 := by unfold INT_MAX at hbig; omega
  by_cases hb1 : w1 &&& 1 ≠ 0
  rotate_left
  · rw [if_neg hb1]
    have := mt and_one16.mpr hb1
    exact ⟨fun h => by omega, fun _ => ⟨by simp, by simpa using hl1⟩⟩
  rw [if_pos hb1]
  have hb1' := and_one16.mp hb1
  unfold decFlags
  rw [M.bind_def, h2]
  by_cases hl2 : 4 + 2 ≤ E.len
  rotate_left
  · rw [if_neg hl2]
    exact ⟨fun h => by omega, fun _ => DecErr.bad⟩
  rw [if_pos hl2]
  dsimp only
  rw [if_pos (by omega)]
  exact ⟨fun _ => rfl, fun h => absurd ⟨by omega, hb0', Or.inr ⟨hb1', by omega⟩⟩ h⟩

/-- C14 (partial): decoding arbitrary bytes as the properties of an arbitrary class is safe — no out-of-bounds read, only the
statuses BAD_AMQP_DATA, NO_MEMORY and UNKNOWN_CLASS — *provided* the flag words are not of the form that makes the C shift
undefined.  Missing from the full property: exactly those inputs (see `C14_continuation_words_undefined`). -/
theorem C14_decode_properties_safe_partial (E : DEnv) (hmem : E.len ≤ E.mem.length) (hsize : E.len ≤ 2 ^ 30)
    (classId : UInt16) (k : Nat) (hflags : ¬ BadFlagWords E) :
    (∃ r s, decProperties E classId k = .ok r s ∧ s.off ≤ E.len) ∨
    (∃ e s, decProperties E classId k = .err e s ∧
      (e = St.BAD_AMQP_DATA ∨ e = St.NO_MEMORY ∨ e = St.UNKNOWN_CLASS)) := by
  have hF := (decFlags_cases E hmem k).2 hflags
  unfold decProperties
  have hF' : SafeRes E (fun e => DecErr e ∨ e = St.UNKNOWN_CLASS) 0 ⟨0, k⟩ (decFlags E 3 0 0 ⟨0, k⟩) := by
    revert hF; cases decFlags E 3 0 0 ⟨0, k⟩ <;> intro hF
    · exact hF
    · exact Or.inl hF
    · exact hF
    · exact hF
  have hS := SafeRes.bind (m₁ := 0) (m₂ := 0) (f := fun flags => match switch classId decPropTable with
    | none => M.fail St.UNKNOWN_CLASS
    | some ps => do
      M.orFail St.NO_MEMORY (allocate E)
      let r ← decProps E flags ps
      pure (flags, r)) hF' (by
      intro flags s1 _ _ h1
      cases switch classId decPropTable with
      | none => exact Or.inr rfl
      | some ps =>
        have := SafeRes.bind (m₁ := 0) (m₂ := 0)
          (f := fun _ => decProps E flags ps >>= fun r => (Pure.pure (flags, r) : M DState (UInt32 × Rec)))
          (SafeRes.allocate DecErr.mem s1 h1)
          (fun _ s2 _ _ h2 => SafeRes.map (fun r => (flags, r)) (decProps_safe hmem hsize flags ps s2 h2))
        show SafeRes E _ _ _ ((M.orFail St.NO_MEMORY (allocate E) >>= fun _ => decProps E flags ps >>= fun r =>
          (Pure.pure (flags, r) : M DState (UInt32 × Rec))) s1)
        revert this
        generalize (M.orFail St.NO_MEMORY (allocate E) >>= fun _ => decProps E flags ps >>= fun r =>
          (Pure.pure (flags, r) : M DState (UInt32 × Rec))) s1 = R
        intro this
        cases R
        · exact this
        · exact Or.inl this
        · exact this
        · exact this)
  revert hS
  generalize ((decFlags E 3 0 0 >>= fun flags => match switch classId decPropTable with
    | none => M.fail St.UNKNOWN_CLASS
    | some ps => do
      M.orFail St.NO_MEMORY (allocate E)
      let r ← decProps E flags ps
      pure (flags, r)) ⟨0, k⟩ : Res DState (UInt32 × Rec)) = R
  intro hS
  cases R with
  | ok r s => exact Or.inl ⟨r, s, rfl, hS.2⟩
  | err e s => exact Or.inr ⟨e, s, rfl, by rcases hS with (h | h) | h <;> simp [h]⟩
  | ub => exact hS.elim
  | fuel => exact hS.elim

/-- C14 (negation): on every input whose flag words have the bad form the C code executes an undefined shift.  A peer can
send such a header frame. -/
theorem C14_continuation_words_undefined (E : DEnv) (hmem : E.len ≤ E.mem.length) (classId : UInt16) (k : Nat)
    (h : BadFlagWords E) : decProperties E classId k = .ub := by
  unfold decProperties
  rw [M.bind_def, (decFlags_cases E hmem k).1 h]

example : BadFlagWords ⟨[0, 1, 0, 1, 0, 0], 6, false, fun _ => true⟩ := by
  refine ⟨by decide, by decide +kernel, Or.inr ⟨by decide +kernel, by decide⟩⟩
example : ¬ BadFlagWords ⟨[128, 0, 1, 65], 4, false, fun _ => true⟩ := by
  rintro ⟨_, h, _⟩; revert h; decide +kernel

/-! ## C15 -/

/-- C15 (methods; partial): encoding a method with a short string longer than 255 bytes (or a long string of 4 GiB or more)
fails; nothing is returned as encoded.  Missing from the full property: the status is BAD_AMQP_DATA unless an earlier table
argument fails first with another error, and table keys are not covered (`C15_table_key_truncated`). -/
theorem C15_methods_partial (p : Proto) (hp : p ∈ protocol) (r : Rec) (hr : HasArgs p.args r)
    (hbad : ¬ AllArgs Dom.encodable p.args r) (be : Bool) (mem : Bytes) (len : Nat) (hlen : len ≤ mem.length) :
    ∃ e s, encMethod be mem len p.id r = .err e s ∧
      (e = St.BAD_AMQP_DATA ∨ e = St.TABLE_TOO_BIG ∨ e = St.INVALID_PARAMETER) := by
  have hE := encArgs_encodes be len r p.args r hr
    (get?_of_nodup (by rw [hr.fst_eq]; exact protocol_args_nodup p hp)) [] [] trivial (by simp) ⟨mem, 0⟩ hlen
  rcases hE.2 (Or.inl hbad) with ⟨e, s', h1, h2, _⟩ | ⟨_, h, _⟩
  · refine ⟨e, s', by simp only [encMethod, enc_switch hp, h1], ?_⟩
    rcases h2 with h | h | h <;> simp [h]
  · exact absurd h hbad

/-- C15 (properties; partial): likewise for a flagged content property. -/
theorem C15_properties_partial {c : UInt16 × List (Nat × Fld × Dom)} (hc : c ∈ propClasses) (be : Bool)
    (flags : UInt32) (hw : flags.toNat < 65536 ∧ ¬ flagSet flags 0) (r : Rec)
    (hp : PropsOK (fun _ _ => True) flags r c.2) (p : Nat × Fld × Dom) (hm : p ∈ c.2) (hs : flagSet flags p.1)
    (v : Val) (hv : r.get? p.2.1 = some v) (hbad : ¬ p.2.2.encodable v) (mem : Bytes) (len : Nat) (hlen : len ≤ mem.length) :
    ∃ e s, encProperties be mem len c.1 flags r = .err e s ∧
      (e = St.BAD_AMQP_DATA ∨ e = St.TABLE_TOO_BIG ∨ e = St.INVALID_PARAMETER) := by
  obtain ⟨e, s, h1, h2⟩ := (encProperties_exact hc be hw r hp mem len hlen).2 (Or.inl fun h => hbad (h p hm hs v hv))
  exact ⟨e, s, h1, by rcases h2 with h | h | h <;> simp [h]⟩

/-- C15 (negation for table keys): a 256-byte key is written with length octet 0 and the table is reported as encoded; a
decoder then misreads it. -/
theorem C15_table_key_truncated :
    (encTable false 300 [.mk (List.replicate 256 97) .void] ⟨List.replicate 300 0, 0⟩).val? = some () ∧
    ((encTable false 300 [.mk (List.replicate 256 97) .void] ⟨List.replicate 300 0, 0⟩).state?.map (·.mem[4]?)) =
      some (some 0) ∧
    ((encTable false 300 [.mk (List.replicate 256 97) .void] ⟨List.replicate 300 0, 0⟩).state?.map fun s =>
      (decodeTable ⟨s.mem, s.off, false, fun _ => true⟩ ⟨0, 0⟩).errCode?) = some (some St.BAD_AMQP_DATA) := by
  refine ⟨?_, ?_, ?_⟩ <;> decide +kernel

example : ¬ AllArgs Dom.encodable [(.out_of_band, .shortstr)] [(.out_of_band, .bytes (List.replicate 256 97))] := by
  rintro ⟨h, _⟩
  have h : (List.replicate 256 (97 : UInt8)).length ≤ 255 := h
  rw [List.length_replicate] at h; omega
example : (encMethod false (List.replicate 400 0) 400 0x0014000A [(.out_of_band, .bytes (List.replicate 256 97))]).errCode? =
    some St.BAD_AMQP_DATA := by decide +kernel

end Rmq
