import Verif.Spec.Identity
import Verif.Props.Safety
/-!
# C94: how the client introduces itself
-/
namespace Rmq

theorem defaultProperties_identity (b : Build) : (defaultProperties b).erase = identity b.version b.platform := rfl

/-- C94: after a successful login exactly one start-ok was sent in answer to connection.start, and the properties in it are the library's own if the application
gave none, and its own merged with the application's otherwise — entry by entry (`mergeOnto`, see `C09_any_lookup`), which is the merge
of C09 if no key occurs twice. -/
theorem C94_announced {E : NetEnv} {b : Build} {memcmp : Bytes → Bytes → Int} (hM : MemcmpSpec memcmp) {mem : Nat → UInt8} {a : LoginArgs}
    (hf31 : a.frameMax < 2 ^ 31) {s s' : Conn} (h0 : HbOff s) (hO : OutReady s ∧ s.outLen < 2 ^ 32 ∧ 12 ≤ s.outLen)
    (hprops : ∀ t, a.clientProperties = some t → t.stored)
    (h : login E b memcmp mem a s = .ok (.normal ()) s') :
    ∃ s1 s2 s3 s4 start tune props c f hb, (Sent s s1 protocolHeaderBytes ∨ Sent s s1 []) ∧
      Received E s1 start s2 ∧ SuitableStart a.sasl start ∧
      Sent s2 s3 (startOkFrame props (cstr a.sasl.ianaName) a.sasl.response) ∧
      Received E s3 tune s4 ∧ TuneFrame c f hb tune ∧
      (a.clientProperties = none → props = identity b.version b.platform) ∧
      (∀ t, a.clientProperties = some t → mergeOnto (identity b.version b.platform) t.erase = some props ∧
        (distinctKeys t.erase → props = mergeSpec (identity b.version b.platform) t.erase)) := by
  have hE : MemcmpExact memcmp := fun l r hl => (hM l r hl).1
  obtain ⟨s1, s2, s3, s4, s5, s6, s7, s8, fs, ft, props, c, f, hb, v, args, a1, a2, a3, a4, a5, a6, _, _, _, _, _, _, _, _, _, _, r, x, y, m1, m2⟩ :=
    login_normal hE hf31 h0 hO h
  refine ⟨s1, s2, s3, s4, fs, ft, props, c, f, hb, a1, a2, a3, a4, a5, a6, fun hn => ?_, fun t ht => ?_⟩
  · rw [hn] at m1
    rcases C09_null_add memcmp E.pe.alloc 0 (defaultProperties b) x (defaultProperties_stored b) with ⟨r', s', h, he, _⟩ | ⟨e, s', h, _⟩
    · rw [h] at m1
      cases m1
      rw [← m2, he, defaultProperties_identity]
    · rw [h] at m1; cases m1
  · rw [ht] at m1
    refine ⟨?_, fun hd => ?_⟩
    · rcases C09_merge_any memcmp hM E.pe.alloc 0 (defaultProperties b) t x (defaultProperties_stored b) (hprops t ht) with ⟨r', s', h, he, _⟩ | ⟨e, s', h, _⟩ | ⟨h, _⟩
      · rw [h] at m1
        cases m1
        rw [← m2, ← he, defaultProperties_identity]
      · rw [h] at m1; cases m1
      · rw [h] at m1; cases m1
    · rcases C09_merge_partial memcmp hM E.pe.alloc 0 (defaultProperties b) t x (defaultProperties_stored b) (hprops t ht)
          (defaultProperties_distinct b) hd with ⟨r', s', h, he, _⟩ | ⟨e, s', h, _⟩
      · rw [h] at m1
        cases m1
        rw [← m2, he, defaultProperties_identity]
      · rw [h] at m1; cases m1

/-- C94: so a server that looks for a property the application has not set finds the library's … -/
theorem C94_kept (version platform : Bytes) (t : Table) (k : Bytes) (h : lookup t k = none) :
    lookup (mergeSpec (identity version platform) t) k = lookup (identity version platform) k := (C09_merge_lookup _ t k).1 h

/-- … one it has set it finds as set, capabilities excepted … -/
theorem C94_set (version platform : Bytes) (t : Table) (k : Bytes) (v : FV) (h : lookup t k = some v) (hk : k ≠ "capabilities".toUTF8.toList) :
    lookup (mergeSpec (identity version platform) t) k = some v := by
  cases hb : lookup (identity version platform) k with
  | none => exact (C09_merge_lookup _ t k).2.1 v h hb
  | some w =>
    refine (C09_merge_lookup _ t k).2.2.2 v w h hb (Or.inr fun x hx => ?_)
    subst hx
    simp only [identity, lookup] at hb
    repeat' split at hb
    all_goals first | (cases hb; done) | skip
    exact hk (Eq.symm ‹_›)

/-- … and a capability it finds as the application set it, or else as the library has it: that it understands a connection.close refusing
the credentials, and bindings between exchanges. -/
theorem C94_capabilities (version platform : Bytes) (t caps : Table) (h : lookup t "capabilities".toUTF8.toList = some (.table caps)) :
    ∃ all, lookup (mergeSpec (identity version platform) t) "capabilities".toUTF8.toList = some (.table all) ∧
      (∀ k v, lookup caps k = some v → (∀ x, v ≠ .table x) → lookup all k = some v) ∧
      (lookup caps "authentication_failure_close".toUTF8.toList = none →
        lookup all "authentication_failure_close".toUTF8.toList = some (.boolean 1)) ∧
      (lookup caps "exchange_exchange_bindings".toUTF8.toList = none →
        lookup all "exchange_exchange_bindings".toUTF8.toList = some (.boolean 1)) := by
  let own : Table := [.mk "authentication_failure_close".toUTF8.toList (.boolean 1), .mk "exchange_exchange_bindings".toUTF8.toList (.boolean 1)]
  have hb : lookup (identity version platform) "capabilities".toUTF8.toList = some (.table own) := by
    simp only [identity, lookup]
    repeat rw [if_neg (by decide +kernel)]
    rw [if_pos trivial]
  refine ⟨mergeSpec own caps, (C09_merge_lookup _ t _).2.2.1 caps own h hb, fun k v hv hn => ?_, fun hn => ?_, fun hn => ?_⟩
  · cases ho : lookup own k with
    | none => exact (C09_merge_lookup _ caps k).2.1 v hv ho
    | some w => exact (C09_merge_lookup _ caps k).2.2.2 v w hv ho (Or.inl hn)
  · rw [(C09_merge_lookup _ caps _).1 hn]
    show lookup own _ = _
    simp only [own, lookup]
    rw [if_pos trivial]
  · rw [(C09_merge_lookup _ caps _).1 hn]
    show lookup own _ = _
    simp only [own, lookup]
    rw [if_neg (by decide +kernel), if_pos trivial]

/-! The hypotheses are met by the logins of `Props/Login.lean`, which give no properties, and by this one, which sets the product. -/
def namedArgs : LoginArgs := { loginArgs with clientProperties := some ⟨some ⟨0, 90, 1 * SIZEOF_ENTRY⟩, [utf8Entry "product" (cstr "shop")]⟩ }
def namedLogin : Res Conn (Outcome Unit) := login (loginEnv [(4, .data (startBytes "PLAIN")), (10, .data tuneBytes), (15, .data openOkBytes)])
  ⟨[49], [50]⟩ refMemcmp (fun _ => 0) namedArgs loginConn
example : namedLogin.val?.map Outcome.tag = some 1 := by decide +kernel
example : ∀ t, namedArgs.clientProperties = some t → t.stored ∧ distinctKeys t.erase := by
  intro t ht
  cases ht
  refine ⟨?_, ?_⟩
  · simp [utf8Entry, PTable.stored, PV.storedEs, PE.stored, PV.stored, holds, SIZEOF_ENTRY, cstr]
    decide +kernel
  · simp [utf8Entry, PTable.erase, PV.eraseEs, PE.erase, PV.erase, distinctKeys, distinctEs, distinctE, distinctV, Entry.key]

end Rmq
