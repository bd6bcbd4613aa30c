import Verif.Proofs.Tools2
import Verif.Proofs.Url
import Verif.Spec.Methods
/-! Lemmas about the tools: publishing, getting, connection options. -/
namespace Rmq.ToolsM
open Rmq.ToolsSpec UrlM

/-! ### A computation that cannot return normally -/

def NeverOk {σ α : Type} (x : M σ α) : Prop := ∀ s a s', x s ≠ .ok a s'

theorem NeverOk.fail {σ α : Type} (e : Int) : NeverOk (M.fail e : M σ α) := fun _ _ _ h => nomatch h
theorem NeverOk.bind_left {σ α β : Type} {x : M σ α} (h : NeverOk x) (f : α → M σ β) : NeverOk (x >>= f) := by
  intro s b s' h'
  rw [M.bind_def] at h'
  cases hx : x s with
  | ok a s1 => exact h s a s1 hx
  | err e s1 => rw [hx] at h'; cases h'
  | ub => rw [hx] at h'; cases h'
  | fuel => rw [hx] at h'; cases h'
theorem NeverOk.bind_right {σ α β : Type} (x : M σ α) {f : α → M σ β} (h : ∀ a, NeverOk (f a)) : NeverOk (x >>= f) := by
  intro s b s' h'
  rw [M.bind_def] at h'
  cases hx : x s with
  | ok a s1 => rw [hx] at h'; exact h a s1 b s' h'
  | err e s1 => rw [hx] at h'; cases h'
  | ub => rw [hx] at h'; cases h'
  | fuel => rw [hx] at h'; cases h'

/-! ### Headers -/

theorem encEntries_never (be : Bool) (len : Nat) (k : UInt8) (key : Bytes) : ∀ t : Table, Entry.mk key (.other k) ∈ t →
    NeverOk (encEntries be len t) := by
  intro t
  induction t with
  | nil => intro h; cases h
  | cons e es ih =>
    intro h
    unfold encEntries
    rcases List.mem_cons.1 h with rfl | h
    · refine NeverOk.bind_left ?_ _
      unfold encEntry
      refine NeverOk.bind_right _ fun _ => NeverOk.bind_right _ fun _ => ?_
      unfold encFV
      exact NeverOk.bind_right _ fun _ => NeverOk.fail _
    · exact NeverOk.bind_right _ fun _ => ih h

theorem encTable_never (be : Bool) (len : Nat) (t : Table) (k : UInt8) (key : Bytes) (h : Entry.mk key (.other k) ∈ t) :
    NeverOk (encTable be len t) := by
  intro s a s' h'
  unfold encTable encTableWith at h'
  dsimp only at h'
  cases hl : encEntries be len t { s with off := s.off + 4 } with
  | ok a s1 => exact encEntries_never be len k key t h _ _ _ hl
  | err e s1 => rw [hl] at h'; cases h'
  | ub => rw [hl] at h'; cases h'
  | fuel => rw [hl] at h'; cases h'

theorem headerTable_length (hs : List Bytes) : (headerEntries hs).length ≤ hs.length := by
  induction hs with
  | nil => simp [headerEntries]
  | cons h hs ih => unfold headerEntries; split <;> simp <;> omega

theorem headerTable_short {hs : List Bytes} {h : Bytes} (hm : h ∈ hs) (hc : (58 : UInt8) ∉ h) : (headerEntries hs).length < hs.length := by
  induction hs with
  | nil => cases hm
  | cons x hs ih =>
    unfold headerEntries
    rcases List.mem_cons.1 hm with rfl | hm
    · rw [if_neg hc]; have := headerTable_length hs; simp; omega
    · split <;> simp <;> have := ih hm <;> omega

theorem headerTable_bad {hs : List Bytes} {h : Bytes} (hm : h ∈ hs) (hc : (58 : UInt8) ∉ h) : Entry.mk [] (.other 0) ∈ headerTable hs := by
  unfold headerTable
  have := headerTable_short hm hc
  refine List.mem_append_right _ (List.mem_replicate.2 ⟨by omega, rfl⟩)

theorem headerTable_good {hs : List Bytes} (h : ∀ x ∈ hs, (58 : UInt8) ∈ x) : HeaderDefs hs (headerTable hs) := by
  have hlen : ∀ hs : List Bytes, (∀ x ∈ hs, (58 : UInt8) ∈ x) → (headerEntries hs).length = hs.length := by
    intro hs
    induction hs with
    | nil => intro _; rfl
    | cons x l ih =>
      intro h; unfold headerEntries; rw [if_pos (h x (by simp))]; simp; exact ih fun y hy => h y (by simp [hy])
  have key : ∀ hs : List Bytes, (∀ x ∈ hs, (58 : UInt8) ∈ x) → HeaderDefs hs (headerEntries hs) := by
    intro hs
    induction hs with
    | nil => intro _; exact HeaderDefs.nil
    | cons x l ih =>
      intro h
      unfold headerEntries; rw [if_pos (h x (by simp))]
      refine HeaderDefs.cons _ _ _ _ _ ?_ (ih fun y hy => h y (by simp [hy]))
      obtain ⟨a, b, rfl, ha⟩ := split_at (h x (by simp))
      obtain ⟨e1, e2⟩ := takeWhile_append_mem (fun x => decide (x ≠ 58)) a 58 b (ne_of_notin ha) (by simp)
      rw [e1, e2]
      refine ⟨(b.takeWhile (· = 32)).length, ?_, ha, ?_⟩
      · have e3 : List.replicate (b.takeWhile (· = 32)).length 32 = b.takeWhile (· = 32) := by
          symm; rw [List.eq_replicate_iff]
          refine ⟨rfl, fun y hy => ?_⟩
          have : ∀ l : Bytes, ∀ z ∈ l.takeWhile (· = 32), z = 32 := by
            intro l
            induction l with
            | nil => intro z hz; cases hz
            | cons w l ihl =>
              intro z hz
              rw [List.takeWhile_cons] at hz
              by_cases hw : w = 32
              · rw [if_pos (by simpa using hw)] at hz
                rcases List.mem_cons.1 hz with rfl | hz
                · exact hw
                · exact ihl z hz
              · rw [if_neg (by simpa using hw)] at hz; cases hz
          exact this _ y hy
        rw [e3]
        show a ++ 58 :: b = _
        simp only [List.drop_one, List.tail_cons]
        rw [List.append_assoc, List.takeWhile_append_dropWhile]; simp
      · show (b.dropWhile (· = 32)).head? ≠ some 32
        intro hh
        cases hd : b.dropWhile (· = 32) with
        | nil => rw [hd] at hh; cases hh
        | cons c t =>
          rw [hd] at hh
          have := List.head_dropWhile_not (p := fun x : UInt8 => decide (x = 32)) (l := b) (by rw [hd]; simp)
          simp only [hd, List.head_cons] at this
          simp at hh this
          exact this hh
  unfold headerTable
  rw [hlen hs h, Nat.sub_self, List.replicate_zero, List.append_nil]
  exact key hs h

/-- The header table the options ask for; `none`: no header. -/
def optTable (o : PubOpts) : Option Table :=
  match o.headers with
  | some (h :: hs) => some (headerTable (h :: hs))
  | _ => none

theorem pubProps_wire (o : PubOpts) : flaggedProps (pubProps o).1 (pubProps o).2 basicProps = wantedProps o (optTable o) := by
  obtain ⟨ex, rk, ct, ce, hd, rt, body, pers, lb⟩ := o
  rcases ct with _ | ct <;> rcases ce with _ | ce <;> rcases rt with _ | rt <;>
    rcases hd with _ | ⟨_ | ⟨h, hs⟩⟩ <;>
    simp (decide := true) only [pubProps, flaggedProps, basicProps, Rec.get?, wantedProps, optTable, if_true, if_false, List.nil_append, List.cons_append, List.append_nil, List.find?, decide_true, decide_false, Option.map]

theorem pubProps_mask (o : PubOpts) : (pubProps o).1 ||| 0xF200 = 0xF200 := by
  obtain ⟨ex, rk, ct, ce, hd, rt, body, pers, lb⟩ := o
  rcases ct with _ | ct <;> rcases ce with _ | ce <;> rcases rt with _ | rt <;>
    rcases hd with _ | ⟨_ | ⟨h, hs⟩⟩ <;> simp only [pubProps] <;> decide

theorem pubProps_flags (o : PubOpts) (i : Nat) (h : flagSet (pubProps o).1 i) : i = 15 ∨ i = 14 ∨ i = 13 ∨ i = 12 ∨ i = 9 := by
  have h1 := congrArg UInt32.toNat (pubProps_mask o)
  rw [UInt32.toNat_or] at h1
  have h2 : ((pubProps o).1.toNat ||| (0xF200 : UInt32).toNat).testBit i = true := by
    rw [Nat.testBit_or]; unfold flagSet at h; rw [h]; rfl
  rw [h1] at h2
  have hlt : i < 16 := by
    apply Classical.byContradiction; intro hi
    have : (0xF200 : UInt32).toNat < 2 ^ i := Nat.lt_of_lt_of_le (by decide : (0xF200 : UInt32).toNat < 2 ^ 16) (Nat.pow_le_pow_right (by decide) (by omega))
    rw [Nat.testBit_lt_two_pow this] at h2
    cases h2
  have hall : ∀ j : Fin 16, (0xF200 : UInt32).toNat.testBit j.val = true → j.val = 15 ∨ j.val = 14 ∨ j.val = 13 ∨ j.val = 12 ∨ j.val = 9 := by
    decide
  exact hall ⟨i, hlt⟩ h2

/-! ### A header definition without a colon -/

theorem encProps_never (be : Bool) (len : Nat) (o : PubOpts) (hs : List Bytes) (h : Bytes) (ho : o.headers = some hs) (hm : h ∈ hs)
    (hc : (58 : UInt8) ∉ h) : ∃ ps, switch (60 : UInt16) encPropTable = some ps ∧ NeverOk (encProps be len (pubProps o).1 (pubProps o).2 ps) := by
  refine ⟨_, rfl, ?_⟩
  obtain ⟨x, xs, rfl⟩ : ∃ x xs, hs = x :: xs := by cases hs with | nil => cases hm | cons x xs => exact ⟨x, xs, rfl⟩
  have hf : (pubProps o).1 &&& UInt32.ofNat (1 <<< 13) ≠ 0 ∧ (pubProps o).2.get? .headers = some (.table (headerTable (x :: xs))) := by
    obtain ⟨ex, rk, ct, ce, hd, rt, body, pers, lb⟩ := o
    dsimp only at ho; subst ho
    rcases ct with _ | ct <;> rcases ce with _ | ce <;> rcases rt with _ | rt <;> exact ⟨by simp only [pubProps]; decide, rfl⟩
  unfold encProps
  refine NeverOk.bind_right _ fun _ => ?_
  unfold encProps
  refine NeverOk.bind_right _ fun _ => ?_
  unfold encProps
  refine NeverOk.bind_left ?_ _
  unfold encProp
  rw [if_pos hf.1, hf.2]
  exact encTable_never be len _ 0 [] (headerTable_bad hm hc)

theorem header_never (be : Bool) (mem : Bytes) (len : Nat) (ch : UInt16) (size : UInt64) (o : PubOpts) (hs : List Bytes) (h : Bytes)
    (ho : o.headers = some hs) (hm : h ∈ hs) (hc : (58 : UInt8) ∉ h) (r m : Bytes) :
    frameToBytes be mem len ⟨ch, .header 60 size (pubProps o).1 (pubProps o).2⟩ ≠ .ok r m := by
  obtain ⟨ps, h1, h2⟩ := encProps_never be (subWrap len (HEADER_SIZE + 12 + FOOTER_SIZE)) o hs h ho hm hc
  intro hh
  unfold frameToBytes at hh
  split at hh
  · cases hh
  split at hh
  · cases hh
  dsimp only at hh
  split at hh
  · cases hh
  split at hh
  · cases hh
  split at hh
  · cases hh
  rename_i m5 _
  cases he : encProperties be (m5.drop (HEADER_SIZE + 12)) (subWrap len (HEADER_SIZE + 12 + FOOTER_SIZE)) 60 (pubProps o).1 (pubProps o).2 with
  | ok n s =>
    unfold encProperties at he
    cases hf : encFlags be (subWrap len (HEADER_SIZE + 12 + FOOTER_SIZE)) 3 (pubProps o).1 ⟨m5.drop (HEADER_SIZE + 12), 0⟩ with
    | ok u s1 =>
      rw [hf, h1] at he
      dsimp only at he
      cases hp : encProps be (subWrap len (HEADER_SIZE + 12 + FOOTER_SIZE)) (pubProps o).1 (pubProps o).2 ps s1 with
      | ok u s2 => exact h2 _ _ _ hp
      | err e s2 => rw [hp] at he; cases he
      | ub => rw [hp] at he; cases he
      | fuel => rw [hp] at he; cases he
    | err e s1 => rw [hf] at he; cases he
    | ub => rw [hf] at he; cases he
    | fuel => rw [hf] at he; cases he
  | err e s => rw [he] at hh; cases hh
  | ub => rw [he] at hh; cases hh
  | fuel => rw [he] at hh; cases hh

theorem doPublish_never (S : Shell) (o : PubOpts) (body : Bytes) (hs : List Bytes) (h : Bytes)
    (ho : o.headers = some hs) (hm : h ∈ hs) (hc : (58 : UInt8) ∉ h) : NeverOk (doPublish S o body) := by
  unfold doPublish
  dsimp only
  refine NeverOk.bind_right _ fun _ => ?_
  intro p a p' hh
  unfold orDie App.lift at hh
  cases hb : basicPublish S.net 1 (o.exchange.getD []) (o.routingKey.getD []) 0 0 (some (pubProps o)) body p.app.conn with
  | ok a s =>
    unfold basicPublish at hb
    dsimp only at hb
    revert hb
    refine NeverOk.bind_right _ (fun _ => NeverOk.bind_right _ fun _ => NeverOk.bind_left ?_ _) _ _ _
    intro s1 a s2 h1
    unfold sendFrame at h1
    dsimp only [Option.getD] at h1
    cases hf : frameToBytes S.net.pe.be s1.outMem s1.outLen ⟨1, .header BASIC_CLASS (UInt64.ofNat body.length) (pubProps o).1 (pubProps o).2⟩ with
    | ok r m => exact header_never _ _ _ _ _ o hs h ho hm hc _ _ hf
    | err e m => rw [hf] at h1; cases h1
    | ub => rw [hf] at h1; cases h1
    | fuel => rw [hf] at h1; cases h1
  | err e s => rw [hb] at hh; dsimp only at hh; split at hh <;> cases hh
  | ub => rw [hb] at hh; cases hh
  | fuel => rw [hb] at hh; cases hh

/-! ### amqp-publish -/

theorem publishMain_ext (S : Shell) (o : PubOpts) (stdin : Bytes) (p : Proc) :
    Ext p (publishMain S o stdin p)
      (fun seg _ => (o.exchange ≠ none ∨ o.routingKey ≠ none) ∧
        ((∃ b, o.body = some b ∧ o.lineBuffered = false ∧ seg = [pubAct o b]) ∨
         (∃ b, o.body = some b ∧ o.lineBuffered = true ∧ seg = []) ∨
         (∃ cs, o.body = none ∧ o.lineBuffered = true ∧ Chunked stdin cs ∧ seg = cs.map fun c => pubAct o (cstring c)) ∨
         (∃ rd k, o.body = none ∧ o.lineBuffered = false ∧ (∀ a ∈ rd, (∀ j, a ≠ .read j []) ∧ publishedOf [a] = []) ∧ 0 < k ∧
           seg = rd ++ [.read k [], pubAct o (inputOf rd)])))
      (fun _ => True) := by
  unfold publishMain
  by_cases h1 : o.exchange = none ∧ o.routingKey = none
  · rw [if_pos h1]; exact Ext.die trivial
  rw [if_neg h1]
  have h1' : o.exchange ≠ none ∨ o.routingKey ≠ none := by
    by_cases h : o.exchange = none
    · exact Or.inr fun h' => h1 ⟨h, h'⟩
    · exact Or.inl h
  cases hb : o.body with
  | some b =>
    dsimp only
    by_cases hl : o.lineBuffered = true
    · rw [if_pos hl]; exact Ext.pure _ ⟨h1', Or.inr (Or.inl ⟨b, rfl, hl, rfl⟩)⟩
    · rw [if_neg hl]
      exact Ext.mono (doPublish_ext S o b p) (fun s _ h => ⟨h1', Or.inl ⟨b, rfl, by simpa using hl, h⟩⟩) (fun _ _ => trivial)
  | none =>
    dsimp only
    by_cases hl : o.lineBuffered = true
    · rw [if_pos hl]
      exact Ext.mono (lineLoop_ext S o _ stdin p) (fun s _ ⟨cs, h, h'⟩ => ⟨h1', Or.inr (Or.inr (Or.inl ⟨cs, rfl, hl, h, h'⟩))⟩) (fun _ _ => trivial)
    · rw [if_neg hl]
      refine Ext.bind (readAll_ext S p) ?_ (fun _ _ => trivial)
      rintro ⟨b, ok⟩ seg p1 ⟨rd, k, rfl, hk, hb1, hrd⟩ _
      dsimp only
      by_cases hn : ok = false ∧ b ≠ []
      · rw [if_pos hn]; trivial
      rw [if_neg hn]
      refine Ext.mono (doPublish_ext S o b p1) ?_ (fun _ _ => trivial)
      rintro s _ rfl
      refine ⟨h1', Or.inr (Or.inr (Or.inr ⟨rd, k, rfl, by simpa using hl, hrd, hk, ?_⟩))⟩
      dsimp only at hb1
      simp [hb1]

/-! ### amqp-get -/

theorem doGet_ext (S : Shell) (queue : Bytes) (p : Proc) :
    Ext p (doGet S queue p) (fun seg got => ∃ copy, seg = .get queue :: copy ∧ if got then Copied 1 copy else copy = [])
      (fun seg => Quiet seg ∧ outputOf 1 seg <+: bodyOf (framesOf seg)) := by
  have hq : Quiet [.get queue] := by
    intro a ha
    obtain rfl := List.mem_singleton.1 ha
    exact ⟨(fun _ h => nomatch h), (fun _ h => nomatch h)⟩
  have hn : Quiet [.get queue] ∧ outputOf 1 [.get queue] <+: bodyOf (framesOf [.get queue]) := ⟨hq, List.nil_prefix⟩
  unfold doGet
  show Ext p ((orDie (basicGet S.net 1 queue 1) >>= _) (p.push (.get queue))) _ _
  refine Ext.step (a := .get queue) ?_
  refine Ext.bind (Q₁ := fun seg _ => seg = []) (X₁ := fun seg => seg = []) (Ext.orDie _ (fun _ => rfl) rfl) ?_ (fun _ h => by subst h; exact hn)
  rintro r seg p1 rfl _
  cases r with
  | normal id args =>
    dsimp only
    by_cases h : id = 0x003C0048
    · rw [if_pos h]; exact Ext.pure _ ⟨[], rfl, rfl⟩
    · rw [if_neg h]
      refine Ext.bind (copyBody_ext S 1 p1) ?_ (fun _ h => ⟨Quiet.append hq h.1, h.2⟩)
      rintro _ seg p2 hc _
      exact Ext.pure _ ⟨seg, by simp, hc⟩
  | serverException id args => exact Ext.die hn
  | libraryException st => exact Ext.die hn

/-! ### Port numbers -/

theorem toInt_iff (v port : Int) : (toInt v = port ∧ 0 ≤ port ∧ port ≤ 65535) ↔ (0 ≤ port ∧ port ≤ 65535 ∧ (2 ^ 32 : Int) ∣ v - port) := by
  unfold toInt Int.bmod
  simp only
  split <;> omega

theorem isDigit_iff (c : UInt8) : isDigit c = true ↔ 48 ≤ c.toNat ∧ c.toNat ≤ 57 := by
  unfold isDigit
  simp only [Bool.and_eq_true, decide_eq_true_eq, UInt8.le_iff_toNat_le]
  rfl

/-- The sign strtol reads, and what follows it. -/
def signOf (r : Bytes) : Bool × Bytes :=
  match r with
  | c :: r' => if c = ch '+' then (false, r') else if c = ch '-' then (true, r') else (false, r)
  | [] => (false, [])
/-- The number after the sign. -/
def digitsOf (neg : Bool) (r : Bytes) : Option (Int × Bytes) :=
  if r.takeWhile isDigit = [] then none
  else some ((if neg then max (-(2 ^ 63)) (-(decVal (r.takeWhile isDigit) : Int)) else min (2 ^ 63 - 1) (decVal (r.takeWhile isDigit) : Int)),
    r.drop (r.takeWhile isDigit).length)
theorem strtol10_eq (s : Bytes) : strtol10 s = digitsOf (signOf (s.dropWhile isSpace)).1 (signOf (s.dropWhile isSpace)).2 := rfl

theorem PortRead_def {text : Bytes} {port : Int} : PortRead text port ↔
  ∃ blanks sign digits : Bytes, text = blanks ++ sign ++ digits ∧ (∀ c ∈ blanks, isSpace c = true) ∧
    (sign = [] ∨ sign = [43] ∨ sign = [45]) ∧ digits ≠ [] ∧ (∀ c ∈ digits, 48 ≤ c.toNat ∧ c.toNat ≤ 57) ∧
    0 ≤ port ∧ port ≤ 65535 ∧
    (2 ^ 32 : Int) ∣ (if sign = [45] then max (-(2 ^ 63)) (-(decVal digits : Int)) else min (2 ^ 63 - 1) (decVal digits : Int)) - port := by
  simp only [UrlM.decVal_decimal, UrlM.isSpace_iff]; rfl

theorem strtol_port (text : Bytes) (port : Int) :
    PortRead text port ↔ ∃ v, strtol10 text = some (v, []) ∧ toInt v = port ∧ 0 ≤ port ∧ port ≤ 65535 := by
  rw [PortRead_def]
  have hdig : ∀ c : UInt8, 48 ≤ c.toNat ∧ c.toNat ≤ 57 → isSpace c = false ∧ c ≠ ch '+' ∧ c ≠ ch '-' := by
    have : ∀ n : Fin 256, 48 ≤ (UInt8.ofNat n.val).toNat ∧ (UInt8.ofNat n.val).toNat ≤ 57 →
        isSpace (UInt8.ofNat n.val) = false ∧ UInt8.ofNat n.val ≠ ch '+' ∧ UInt8.ofNat n.val ≠ ch '-' := by decide +kernel
    intro c; have := this ⟨c.toNat, c.toNat_lt⟩; simpa using this
  constructor
  · rintro ⟨bl, sg, ds, rfl, hb, hs, hd, hdd, h0, h1, h2⟩
    have hds := takeWhile_all isDigit ds (fun x hx => (isDigit_iff x).2 (hdd x hx))
    cases hc : ds with
    | nil => exact absurd hc hd
    | cons d dt =>
    have hdd' := hdig d (hdd d (by simp [hc]))
    have hdrop : ∀ t : Bytes, (∀ c r, t = c :: r → isSpace c = false) → (bl ++ t).dropWhile isSpace = t := by
      intro t ht
      cases t with
      | nil => rw [List.append_nil]; exact (takeWhile_all isSpace bl hb).2
      | cons c r => exact (takeWhile_append_mem isSpace bl c r hb (ht c r rfl)).2
    rw [← hc]
    refine ⟨_, ?_, (toInt_iff _ port).2 ⟨h0, h1, h2⟩⟩
    rw [strtol10_eq]
    have hgo : ∀ neg, digitsOf neg ds = some ((if neg then max (-(2 ^ 63)) (-(decVal ds : Int)) else min (2 ^ 63 - 1) (decVal ds : Int)), []) := by
      intro neg; unfold digitsOf; rw [hds.1, if_neg hd]; simp
    rcases hs with rfl | rfl | rfl
    · rw [List.append_nil, hdrop ds (fun c r e => by rw [hc] at e; injection e with e _; rw [← e]; exact hdd'.1)]
      have hm : signOf ds = (false, ds) := by
        unfold signOf; rw [hc]; dsimp only; rw [if_neg hdd'.2.1, if_neg hdd'.2.2]
      rw [hm, hgo]; rfl
    · rw [List.append_assoc, hdrop _ (fun c r e => by injection e with e _; rw [← e]; decide)]
      have hm : signOf ([43] ++ ds) = (false, ds) := rfl
      rw [hm, hgo]; rfl
    · rw [List.append_assoc, hdrop _ (fun c r e => by injection e with e _; rw [← e]; decide)]
      have hm : signOf ([45] ++ ds) = (true, ds) := rfl
      rw [hm, hgo]; rfl
  · rintro ⟨v, h, hv⟩
    rw [← PortRead_def]
    have hsplit : text = text.takeWhile isSpace ++ text.dropWhile isSpace := (List.takeWhile_append_dropWhile).symm
    have hbl : ∀ l : Bytes, ∀ c ∈ l.takeWhile isSpace, isSpace c = true := by
      intro l
      induction l with
      | nil => intro c hc; cases hc
      | cons x l ih =>
        intro c hc
        rw [List.takeWhile_cons] at hc
        by_cases hx : isSpace x = true
        · rw [if_pos hx] at hc
          rcases List.mem_cons.1 hc with rfl | hc
          · exact hx
          · exact ih c hc
        · rw [if_neg hx] at hc; cases hc
    have hdg : ∀ l : Bytes, ∀ c ∈ l.takeWhile isDigit, 48 ≤ c.toNat ∧ c.toNat ≤ 57 := by
      intro l
      induction l with
      | nil => intro c hc; cases hc
      | cons x l ih =>
        intro c hc
        rw [List.takeWhile_cons] at hc
        by_cases hx : isDigit x = true
        · rw [if_pos hx] at hc
          rcases List.mem_cons.1 hc with rfl | hc
          · exact (isDigit_iff _).1 hx
          · exact ih c hc
        · rw [if_neg hx] at hc; cases hc
    have fin : ∀ (sg r : Bytes), text.dropWhile isSpace = sg ++ r → (sg = [] ∨ sg = [43] ∨ sg = [45]) →
        digitsOf (decide (sg = [45])) r = some (v, []) →
        PortRead text port := by
      intro sg r e hsg hh
      unfold digitsOf at hh
      by_cases hn : r.takeWhile isDigit = []
      · rw [if_pos hn] at hh; cases hh
      rw [if_neg hn] at hh
      injection hh with hh
      injection hh with hval hrest
      simp only [decide_eq_true_eq] at hval
      have hr : r = r.takeWhile isDigit := by
        have := List.take_append_drop (r.takeWhile isDigit).length r
        rw [hrest, List.append_nil] at this
        have h2 := List.prefix_iff_eq_take.1 (List.takeWhile_prefix (l := r) isDigit)
        rw [h2]; exact this.symm
      refine PortRead_def.2 ⟨text.takeWhile isSpace, sg, r.takeWhile isDigit, ?_, hbl text, hsg, hn, hdg r, ?_⟩
      · rw [List.append_assoc, ← hr, ← e]; exact hsplit
      · rw [hval]; exact (toInt_iff v port).1 hv
    rw [strtol10_eq] at h
    cases hr : text.dropWhile isSpace with
    | nil => rw [hr] at h; cases h
    | cons c r =>
      rw [hr] at h
      by_cases hp : c = ch '+'
      · subst hp
        exact fin [43] r (by rw [hr]; rfl) (Or.inr (Or.inl rfl)) h
      · by_cases hm : c = ch '-'
        · subst hm
          exact fin [45] r (by rw [hr]; rfl) (Or.inr (Or.inr rfl)) h
        · have hs : signOf (c :: r) = (false, c :: r) := by unfold signOf; dsimp only; rw [if_neg hp, if_neg hm]
          rw [hs] at h
          exact fin [] (c :: r) (by rw [hr]; rfl) (Or.inl rfl) h

/-! ### Connection options -/

theorem thenR_ok {α β : Type} {r : Res Unit α} {f : α → Res Unit β} {b : β} : thenR r f = .ok b () ↔ ∃ a, r = .ok a () ∧ f a = .ok b () := by
  unfold thenR
  cases r with
  | ok a s => cases s; constructor
              · intro h; exact ⟨a, rfl, h⟩
              · rintro ⟨a', h, h'⟩; injection h with h; subst h; exact h'
  | err e s => constructor
               · intro h; cases h
               · rintro ⟨a, h, _⟩; cases h
  | ub => constructor
          · intro h; cases h
          · rintro ⟨a, h, _⟩; cases h
  | fuel => constructor
            · intro h; cases h
            · rintro ⟨a, h, _⟩; cases h

theorem dieO_ne {α : Type} {a : α} : (dieO : Res Unit α) ≠ .ok a () := fun h => nomatch h

theorem connUrl_none (env : UEnv) (o : ConnOpts) (h : o.url = none) (c : ConnTo) :
    connUrl env o = .ok c () ↔ c = ⟨chs "guest", chs "guest", chs "localhost", chs "/", 5672, false⟩ := by
  unfold connUrl; rw [h]; dsimp only
  exact ⟨fun h => by injection h with h; exact h.symm, fun h => by rw [h]⟩

theorem connUrl_some (env : UEnv) (o : ConnOpts) (u : Bytes) (h : o.url = some u) (c : ConnTo) :
    connUrl env o = .ok c () ↔ ∃ s, parseUrl env (u ++ [0]) = .ok () s ∧ ptrStr s.buf s.info.user = some c.user ∧
      ptrStr s.buf s.info.password = some c.password ∧ ptrStr s.buf s.info.host = some c.host ∧
      ptrStr s.buf s.info.vhost = some c.vhost ∧ c.port = s.info.port ∧ c.ssl = s.info.ssl := by
  unfold connUrl; rw [h]; dsimp only
  cases hp : parseUrl env (u ++ [0]) with
  | ok x s =>
    dsimp only
    constructor
    · intro h
      split at h
      · rename_i a b c' d h1 h2 h3 h4
        injection h with h
        subst h
        exact ⟨s, rfl, h1, h2, h3, h4, rfl, rfl⟩
      · cases h
    · rintro ⟨s', e, h1, h2, h3, h4, h5, h6⟩
      injection e with _ e
      subst e
      rw [h1, h2, h3, h4]
      dsimp only
      rw [← h5, ← h6]
  | err e s => exact ⟨fun h => (dieO_ne h).elim, fun ⟨_, h, _⟩ => (nomatch h)⟩
  | ub => exact ⟨fun h => (nomatch h), fun ⟨_, h, _⟩ => (nomatch h)⟩
  | fuel => exact ⟨fun h => (nomatch h), fun ⟨_, h, _⟩ => (nomatch h)⟩

theorem connServer_iff (o : ConnOpts) (c c' : ConnTo) : connServer o c = .ok c' () ↔
    (o.server = none ∧ c' = c) ∨
    (∃ s, o.server = some s ∧ o.url = none ∧ (58 : UInt8) ∉ s ∧ c' = { c with host := s, port := if o.ssl then 5671 else 5672 }) ∨
    (∃ h text port, o.server = some (h ++ [58] ++ text) ∧ o.url = none ∧ (58 : UInt8) ∉ h ∧ o.port < 0 ∧ PortRead text port ∧
      c' = { c with host := h, port := port }) := by
  unfold connServer
  cases hs : o.server with
  | none =>
    dsimp only
    constructor
    · intro h; injection h with h; exact Or.inl ⟨rfl, h.symm⟩
    · rintro (⟨_, rfl⟩ | ⟨s, h, _⟩ | ⟨h, t, p, e, _⟩)
      · rfl
      · cases h
      · cases e
  | some s =>
    dsimp only
    by_cases hu : o.url ≠ none
    · rw [if_pos hu]
      constructor
      · intro h; exact (dieO_ne h).elim
      · rintro (⟨h, _⟩ | ⟨s', _, h, _⟩ | ⟨h, t, p, _, h', _⟩)
        · cases h
        · exact absurd h hu
        · exact absurd h' hu
    rw [if_neg hu]
    have hu' : o.url = none := Classical.not_not.1 hu
    by_cases hc : (58 : UInt8) ∈ s
    · rw [if_pos hc]
      obtain ⟨a, b, rfl, ha⟩ := split_at hc
      obtain ⟨e1, e2⟩ := takeWhile_append_mem (fun x => decide (x ≠ 58)) a 58 b (ne_of_notin ha) (by simp)
      rw [e1, e2]
      have uniq : ∀ h t : Bytes, (58 : UInt8) ∉ h → some (a ++ 58 :: b) = some (h ++ [58] ++ t) → h = a ∧ t = b := by
        intro h t hh e
        injection e with e
        have e' : a ++ 58 :: b = h ++ 58 :: t := by simpa using e
        obtain ⟨e3, e4⟩ := takeWhile_append_mem (fun x => decide (x ≠ 58)) h 58 t (ne_of_notin hh) (by simp)
        rw [e', e3] at e1; rw [e', e4] at e2
        injection e2 with _ e2
        exact ⟨e1, e2⟩
      by_cases hp : o.port ≥ 0
      · rw [if_pos hp]
        constructor
        · intro h; exact (dieO_ne h).elim
        · rintro (⟨h, _⟩ | ⟨s', h, _, h', _⟩ | ⟨h, t, p, _, _, _, h', _⟩)
          · cases h
          · injection h with h; subst h; exact absurd hc h'
          · omega
      rw [if_neg hp]
      simp only [List.drop_one, List.tail_cons]
      constructor
      · intro h
        cases hst : strtol10 b with
        | none => rw [hst] at h; exact (dieO_ne h).elim
        | some vr =>
          obtain ⟨v, rest⟩ := vr
          rw [hst] at h
          dsimp only at h
          by_cases hb : toInt v < 0 ∨ toInt v > 65535 ∨ rest ≠ []
          · rw [if_pos hb] at h; exact (dieO_ne h).elim
          · rw [if_neg hb] at h
            injection h with h
            have hr : rest = [] := Classical.byContradiction fun h => hb (Or.inr (Or.inr h))
            subst hr
            refine Or.inr (Or.inr ⟨a, b, toInt v, by simp, hu', ha, by omega, ?_, h.symm⟩)
            exact (strtol_port b (toInt v)).2 ⟨v, hst, rfl, by omega, by omega⟩
      · rintro (⟨h, _⟩ | ⟨s', h, _, h', _⟩ | ⟨h, t, p, e, _, hh, _, hpr, rfl⟩)
        · cases h
        · injection h with h; subst h; exact absurd hc h'
        · obtain ⟨rfl, rfl⟩ := uniq h t hh e
          obtain ⟨v, h1, h2, h3, h4⟩ := (strtol_port _ p).1 hpr
          rw [h1]
          dsimp only
          rw [if_neg (by rw [h2]; simp; omega), h2]
    · rw [if_neg hc]
      constructor
      · intro h; injection h with h; exact Or.inr (Or.inl ⟨s, rfl, hu', hc, h.symm⟩)
      · rintro (⟨h, _⟩ | ⟨s', h, _, _, rfl⟩ | ⟨h, t, p, e, _⟩)
        · cases h
        · injection h with h; subst h; rfl
        · injection e with e; exact absurd (by rw [e]; simp) hc

theorem connSsl_iff (o : ConnOpts) (c c' : ConnTo) : connSsl o c = .ok c' () ↔
    ((o.ssl = true ∧ c.ssl = false) ∧ o.url = none ∧ c' = { c with ssl := true }) ∨ (¬ (o.ssl = true ∧ c.ssl = false) ∧ c' = c) := by
  unfold connSsl
  by_cases h : o.ssl = true ∧ c.ssl = false
  · rw [if_pos h]
    by_cases hu : o.url ≠ none
    · rw [if_pos hu]
      exact ⟨fun h => (dieO_ne h).elim, fun h' => by
        rcases h' with ⟨_, h', _⟩ | ⟨h', _⟩
        · exact absurd h' hu
        · exact absurd h h'⟩
    · rw [if_neg hu]
      exact ⟨fun h' => by injection h' with h'; exact Or.inl ⟨h, Classical.not_not.1 hu, h'.symm⟩, fun h' => by
        rcases h' with ⟨_, _, rfl⟩ | ⟨h', _⟩
        · rfl
        · exact absurd h h'⟩
  · rw [if_neg h]
    exact ⟨fun h' => by injection h' with h'; exact Or.inr ⟨h, h'.symm⟩, fun h' => by
      rcases h' with ⟨h', _⟩ | ⟨_, rfl⟩
      · exact absurd h' h
      · rfl⟩

theorem connPort_iff (o : ConnOpts) (c c' : ConnTo) : connPort o c = .ok c' () ↔
    (0 ≤ o.port ∧ o.url = none ∧ c' = { c with port := o.port }) ∨ (o.port < 0 ∧ c' = c) := by
  unfold connPort
  by_cases h : o.port ≥ 0
  · rw [if_pos h]
    by_cases hu : o.url ≠ none
    · rw [if_pos hu]
      exact ⟨fun h => (dieO_ne h).elim, fun h' => by
        rcases h' with ⟨_, h', _⟩ | ⟨h', _⟩
        · exact absurd h' hu
        · omega⟩
    · rw [if_neg hu]
      exact ⟨fun h' => by injection h' with h'; exact Or.inl ⟨h, Classical.not_not.1 hu, h'.symm⟩, fun h' => by
        rcases h' with ⟨_, _, rfl⟩ | ⟨h', _⟩
        · rfl
        · omega⟩
  · rw [if_neg h]
    exact ⟨fun h' => by injection h' with h'; exact Or.inr ⟨by omega, h'.symm⟩, fun h' => by
      rcases h' with ⟨h', _⟩ | ⟨_, rfl⟩
      · exact absurd h' h
      · rfl⟩

theorem connUser_iff (o : ConnOpts) (c c' : ConnTo) : connUser o c = .ok c' () ↔
    (o.username = none ∧ c' = c) ∨ ∃ u, o.username = some u ∧ o.url = none ∧ o.authfile = none ∧ c' = { c with user := u } := by
  unfold connUser
  cases h : o.username with
  | none => exact ⟨fun h' => by injection h' with h'; exact Or.inl ⟨rfl, h'.symm⟩, fun h' => by
      rcases h' with ⟨_, rfl⟩ | ⟨u, h', _⟩
      · rfl
      · cases h'⟩
  | some u =>
    dsimp only
    by_cases hu : o.url ≠ none ∨ o.authfile ≠ none
    · rw [if_pos hu]
      exact ⟨fun h => (dieO_ne h).elim, fun h' => by
        rcases h' with ⟨h', _⟩ | ⟨u, _, h1, h2, _⟩
        · cases h'
        · exact absurd hu (by simp [h1, h2])⟩
    · rw [if_neg hu]
      exact ⟨fun h' => by
        injection h' with h'
        exact Or.inr ⟨u, rfl, Classical.byContradiction fun h => hu (Or.inl h), Classical.byContradiction fun h => hu (Or.inr h), h'.symm⟩,
        fun h' => by
        rcases h' with ⟨h', _⟩ | ⟨u', h1, _, _, rfl⟩
        · cases h'
        · injection h1 with h1; subst h1; rfl⟩

theorem connPass_iff (o : ConnOpts) (c c' : ConnTo) : connPass o c = .ok c' () ↔
    (o.password = none ∧ c' = c) ∨ ∃ u, o.password = some u ∧ o.url = none ∧ o.authfile = none ∧ c' = { c with password := u } := by
  unfold connPass
  cases h : o.password with
  | none => exact ⟨fun h' => by injection h' with h'; exact Or.inl ⟨rfl, h'.symm⟩, fun h' => by
      rcases h' with ⟨_, rfl⟩ | ⟨u, h', _⟩
      · rfl
      · cases h'⟩
  | some u =>
    dsimp only
    by_cases hu : o.url ≠ none ∨ o.authfile ≠ none
    · rw [if_pos hu]
      exact ⟨fun h => (dieO_ne h).elim, fun h' => by
        rcases h' with ⟨h', _⟩ | ⟨u, _, h1, h2, _⟩
        · cases h'
        · exact absurd hu (by simp [h1, h2])⟩
    · rw [if_neg hu]
      exact ⟨fun h' => by
        injection h' with h'
        exact Or.inr ⟨u, rfl, Classical.byContradiction fun h => hu (Or.inl h), Classical.byContradiction fun h => hu (Or.inr h), h'.symm⟩,
        fun h' => by
        rcases h' with ⟨h', _⟩ | ⟨u', h1, _, _, rfl⟩
        · cases h'
        · injection h1 with h1; subst h1; rfl⟩

theorem connAuth_iff (o : ConnOpts) (file : Option Bytes) (c c' : ConnTo) : connAuth o file c = .ok c' () ↔
    (o.authfile = none ∧ c' = c) ∨ (o.authfile ≠ none ∧ o.url = none ∧ ∃ u p, GoodToken u ∧ GoodToken p ∧
      file = some (chs "username:" ++ u ++ [10] ++ chs "password:" ++ p ++ [10]) ∧ c' = { c with user := u, password := p }) := by
  unfold connAuth
  cases h : o.authfile with
  | none => exact ⟨fun h' => by injection h' with h'; exact Or.inl ⟨rfl, h'.symm⟩, fun h' => by
      rcases h' with ⟨_, rfl⟩ | ⟨h', _⟩
      · rfl
      · exact absurd rfl h'⟩
  | some n =>
    dsimp only
    by_cases hu : o.url ≠ none
    · rw [if_pos hu]
      exact ⟨fun h => (dieO_ne h).elim, fun h' => by
        rcases h' with ⟨h', _⟩ | ⟨_, h1, _⟩
        · cases h'
        · exact absurd h1 hu⟩
    rw [if_neg hu]
    have hu' : o.url = none := Classical.not_not.1 hu
    cases file with
    | none => exact ⟨fun h => (dieO_ne h).elim, fun h' => by
        rcases h' with ⟨h', _⟩ | ⟨_, _, u, p, _, _, h', _⟩
        · cases h'
        · cases h'⟩
    | some f =>
      dsimp only
      constructor
      · intro h'
        cases hr : readAuthfile f with
        | ok up s =>
          obtain ⟨u, p⟩ := up
          rw [hr] at h'
          injection h' with h'
          obtain ⟨h1, h2, h3⟩ := (readAuthfile_ok f u p).1 hr
          exact Or.inr ⟨by simp, hu', u, p, h2, h3, by rw [h1], h'.symm⟩
        | err e s => rw [hr] at h'; cases h'
        | ub => rw [hr] at h'; cases h'
        | fuel => rw [hr] at h'; cases h'
      · rintro (⟨h', _⟩ | ⟨_, _, u, p, h2, h3, h1, rfl⟩)
        · cases h'
        · injection h1 with h1
          rw [(readAuthfile_ok f u p).2 ⟨h1, h2, h3⟩]

theorem connVhost_iff (o : ConnOpts) (c c' : ConnTo) : connVhost o c = .ok c' () ↔
    (o.vhost = none ∧ c' = c) ∨ ∃ u, o.vhost = some u ∧ o.url = none ∧ c' = { c with vhost := u } := by
  unfold connVhost
  cases h : o.vhost with
  | none => exact ⟨fun h' => by injection h' with h'; exact Or.inl ⟨rfl, h'.symm⟩, fun h' => by
      rcases h' with ⟨_, rfl⟩ | ⟨u, h', _⟩
      · rfl
      · cases h'⟩
  | some u =>
    dsimp only
    by_cases hu : o.url ≠ none
    · rw [if_pos hu]
      exact ⟨fun h => (dieO_ne h).elim, fun h' => by
        rcases h' with ⟨h', _⟩ | ⟨u, _, h1, _⟩
        · cases h'
        · exact absurd h1 hu⟩
    · rw [if_neg hu]
      exact ⟨fun h' => by injection h' with h'; exact Or.inr ⟨u, rfl, Classical.not_not.1 hu, h'.symm⟩, fun h' => by
        rcases h' with ⟨h', _⟩ | ⟨u', h1, _, rfl⟩
        · cases h'
        · injection h1 with h1; subst h1; rfl⟩

theorem connHeartbeat_iff (o : ConnOpts) (c c' : ConnTo) : connHeartbeat o c = .ok c' () ↔ 0 ≤ o.heartbeat ∧ c' = c := by
  unfold connHeartbeat
  by_cases h : o.heartbeat < 0
  · rw [if_pos h]; exact ⟨fun h => (dieO_ne h).elim, fun h' => by omega⟩
  · rw [if_neg h]; exact ⟨fun h' => by injection h' with h'; exact ⟨by omega, h'.symm⟩, fun h' => by rw [h'.2]⟩

theorem connInfo_iff (env : UEnv) (o : ConnOpts) (file : Option Bytes) (c : ConnTo) : connInfo env o file = .ok c () ↔ ConnectTo env o file c := by
  unfold connInfo
  simp only [thenR_ok, connServer_iff, connSsl_iff, connPort_iff, connUser_iff, connPass_iff, connAuth_iff, connVhost_iff, connHeartbeat_iff]
  constructor
  · rintro ⟨c0, h0, c1, h1, c2, h2, c3, h3, c4, h4, c5, h5, c6, h6, c7, h7, hh, rfl⟩
    cases hu : o.url with
    | some u =>
      obtain ⟨s, hs⟩ := (connUrl_some env o u hu c0).1 h0
      have nu : o.url ≠ none := by rw [hu]; simp
      obtain ⟨g1, rfl⟩ : o.server = none ∧ c1 = c0 := by
        rcases h1 with h | ⟨_, _, h, _⟩ | ⟨_, _, _, _, h, _⟩
        · exact h
        · exact absurd h nu
        · exact absurd h nu
      obtain ⟨g2, rfl⟩ : ¬ (o.ssl = true ∧ c1.ssl = false) ∧ c2 = c1 := by
        rcases h2 with ⟨_, h, _⟩ | h
        · exact absurd h nu
        · exact h
      obtain ⟨g3, rfl⟩ : o.port < 0 ∧ c3 = c2 := by
        rcases h3 with ⟨_, h, _⟩ | h
        · exact absurd h nu
        · exact h
      obtain ⟨g4, rfl⟩ : o.username = none ∧ c4 = c3 := by
        rcases h4 with h | ⟨_, _, h, _⟩
        · exact h
        · exact absurd h nu
      obtain ⟨g5, rfl⟩ : o.password = none ∧ c5 = c4 := by
        rcases h5 with h | ⟨_, _, h, _⟩
        · exact h
        · exact absurd h nu
      obtain ⟨g6, rfl⟩ : o.authfile = none ∧ c6 = c5 := by
        rcases h6 with h | ⟨_, h, _⟩
        · exact h
        · exact absurd h nu
      obtain ⟨g7, rfl⟩ : o.vhost = none ∧ c = c6 := by
        rcases h7 with h | ⟨_, _, h, _⟩
        · exact h
        · exact absurd h nu
      obtain ⟨e1, e2, e3, e4, e5, e6, e7⟩ := hs
      refine ConnectTo.url u s c hu g1 g3 g4 g5 g6 g7 hh e1 e2 e3 e4 e5 e6 e7 ?_
      intro hs
      cases hcs : c.ssl with
      | true => rfl
      | false => exact absurd ⟨hs, hcs⟩ g2
    | none =>
      have e0 := (connUrl_none env o hu c0).1 h0
      have f1 : c1.user = chs "guest" ∧ c1.password = chs "guest" ∧ c1.vhost = chs "/" ∧ c1.ssl = false := by
        rcases h1 with ⟨_, rfl⟩ | ⟨s, _, _, _, rfl⟩ | ⟨h, t, p, _, _, _, _, _, rfl⟩ <;> rw [e0] <;> exact ⟨rfl, rfl, rfl, rfl⟩
      have f2 : c2 = { c1 with ssl := o.ssl } := by
        rcases h2 with ⟨⟨h, _⟩, _, rfl⟩ | ⟨h, rfl⟩
        · rw [h]
        · have : o.ssl = false := by
            cases ho : o.ssl with
            | false => rfl
            | true => exact absurd ⟨ho, f1.2.2.2⟩ h
          rw [this]; obtain ⟨a, b, c', d, e, f⟩ := c2; simp at f1 ⊢; exact f1.2.2.2
      have f3 : c3.user = chs "guest" ∧ c3.password = chs "guest" ∧ c3.vhost = chs "/" ∧ c3.ssl = o.ssl ∧ c3.host = c1.host ∧
          c3.port = if 0 ≤ o.port then o.port else c1.port := by
        rcases h3 with ⟨h, _, rfl⟩ | ⟨h, rfl⟩
        · rw [f2, if_pos h]; exact ⟨f1.1, f1.2.1, f1.2.2.1, rfl, rfl, rfl⟩
        · rw [f2, if_neg (by omega)]; exact ⟨f1.1, f1.2.1, f1.2.2.1, rfl, rfl, rfl⟩
      have f4 : c4 = { c3 with user := o.username.getD (chs "guest") } ∧ (o.username ≠ none → o.authfile = none) := by
        rcases h4 with ⟨h, rfl⟩ | ⟨u, h, _, ha, rfl⟩
        · rw [h]; refine ⟨?_, fun h => absurd rfl h⟩
          obtain ⟨a, b, c', d, e, f⟩ := c4; simp at f3 ⊢; exact f3.1
        · rw [h]; exact ⟨rfl, fun _ => ha⟩
      have f5 : c5 = { c4 with password := o.password.getD (chs "guest") } ∧ (o.password ≠ none → o.authfile = none) := by
        rcases h5 with ⟨h, rfl⟩ | ⟨u, h, _, ha, rfl⟩
        · rw [h]; refine ⟨?_, fun h => absurd rfl h⟩
          have : c5.password = chs "guest" := by rw [f4.1]; exact f3.2.1
          obtain ⟨a, b, c', d, e, f⟩ := c5; simp at this ⊢; exact this
        · rw [h]; exact ⟨rfl, fun _ => ha⟩
      have f7 : c = { c6 with vhost := o.vhost.getD (chs "/") } := by
        rcases h7 with ⟨h, rfl⟩ | ⟨u, h, _, rfl⟩
        · rw [h]
          have : c.vhost = chs "/" := by
            rcases h6 with ⟨_, rfl⟩ | ⟨_, _, u, p, _, _, _, rfl⟩
            · rw [f5.1, f4.1]; exact f3.2.2.1
            · show c5.vhost = _; rw [f5.1, f4.1]; exact f3.2.2.1
          obtain ⟨a, b, c', d, e, f⟩ := c; simp at this ⊢; exact this
        · rw [h]; rfl
      have f6 : c6.host = c1.host ∧ c6.port = c3.port ∧ c6.ssl = o.ssl := by
        rcases h6 with ⟨_, rfl⟩ | ⟨_, _, u, p, _, _, _, rfl⟩
        · rw [f5.1, f4.1]; exact ⟨f3.2.2.2.2.1, rfl, f3.2.2.2.1⟩
        · refine ⟨?_, ?_, ?_⟩
          · show c5.host = _; rw [f5.1, f4.1]; exact f3.2.2.2.2.1
          · show c5.port = _; rw [f5.1, f4.1]
          · show c5.ssl = _; rw [f5.1, f4.1]; exact f3.2.2.2.1
      refine ConnectTo.options c hu hh (by rw [f7]; exact f6.2.2) (by rw [f7]) ?_ ?_
      · rcases h6 with ⟨h, rfl⟩ | ⟨h, _, u, p, g1, g2, g3, rfl⟩
        · left; rw [f7, f5.1, f4.1]; exact ⟨h, rfl, rfl⟩
        · right
          refine ⟨h, Classical.byContradiction fun hn => h (f4.2 hn), Classical.byContradiction fun hn => h (f5.2 hn), ?_⟩
          rw [f7]; exact ⟨g1, g2, g3⟩
      · have hp : c.port = if 0 ≤ o.port then o.port else c1.port := by rw [f7]; exact f6.2.1.trans f3.2.2.2.2.2
        have hhost : c.host = c1.host := by rw [f7]; exact f6.1
        rw [hp, hhost]
        rcases h1 with ⟨h, rfl⟩ | ⟨s, h, _, hc, rfl⟩ | ⟨h, t, p, hs, _, hc, hp', hr, rfl⟩
        · left; rw [e0]; exact ⟨h, rfl, rfl⟩
        · right; left; exact ⟨s, h, hc, rfl, rfl⟩
        · right; right
          refine ⟨t, hs, hc, hp', ?_⟩
          rw [if_neg (by omega)]; exact hr
  · intro h
    cases h with
    | url u s c hu g1 g3 g4 g5 g6 g7 hh e1 e2 e3 e4 e5 e6 e7 g2 =>
      refine ⟨c, (connUrl_some env o u hu c).2 ⟨s, e1, e2, e3, e4, e5, e6, e7⟩, c, Or.inl ⟨g1, rfl⟩, c, Or.inr ⟨?_, rfl⟩, c, Or.inr ⟨g3, rfl⟩,
        c, Or.inl ⟨g4, rfl⟩, c, Or.inl ⟨g5, rfl⟩, c, Or.inl ⟨g6, rfl⟩, c, Or.inl ⟨g7, rfl⟩, hh, rfl⟩
      rintro ⟨h1, h2⟩
      rw [g2 h1] at h2; cases h2
    | options c hu hh hs hv hcred hsrv =>
      obtain ⟨user, pass, host, vhost, port, ssl⟩ := c
      dsimp only at hs hv hcred hsrv
      -- the port before --port was looked at
      obtain ⟨port1, hsrv', hport⟩ : ∃ port1, ((o.server = none ∧ (⟨chs "guest", chs "guest", host, chs "/", port1, false⟩ : ConnTo) =
            ⟨chs "guest", chs "guest", chs "localhost", chs "/", 5672, false⟩) ∨
          (∃ s, o.server = some s ∧ o.url = none ∧ (58 : UInt8) ∉ s ∧ (⟨chs "guest", chs "guest", host, chs "/", port1, false⟩ : ConnTo) =
            ⟨chs "guest", chs "guest", s, chs "/", if o.ssl then 5671 else 5672, false⟩) ∨
          (∃ h text p, o.server = some (h ++ [58] ++ text) ∧ o.url = none ∧ (58 : UInt8) ∉ h ∧ o.port < 0 ∧ PortRead text p ∧
            (⟨chs "guest", chs "guest", host, chs "/", port1, false⟩ : ConnTo) = ⟨chs "guest", chs "guest", h, chs "/", p, false⟩)) ∧
          port = if 0 ≤ o.port then o.port else port1 := by
        rcases hsrv with ⟨h1, h2, h3⟩ | ⟨h, h1, h2, h3, h4⟩ | ⟨t, h1, h2, h3, h4⟩
        · exact ⟨5672, Or.inl ⟨h1, by rw [h2]⟩, h3⟩
        · exact ⟨_, Or.inr (Or.inl ⟨h, h1, hu, h2, by rw [h3]⟩), h4⟩
        · exact ⟨port, Or.inr (Or.inr ⟨host, t, port, h1, hu, h2, h3, h4, rfl⟩), by rw [if_neg (by omega)]⟩
      refine ⟨⟨chs "guest", chs "guest", chs "localhost", chs "/", 5672, false⟩, (connUrl_none env o hu _).2 rfl,
        ⟨chs "guest", chs "guest", host, chs "/", port1, false⟩, hsrv', ⟨chs "guest", chs "guest", host, chs "/", port1, ssl⟩, ?_,
        ⟨chs "guest", chs "guest", host, chs "/", port, ssl⟩, ?_,
        ⟨o.username.getD (chs "guest"), chs "guest", host, chs "/", port, ssl⟩, ?_,
        ⟨o.username.getD (chs "guest"), o.password.getD (chs "guest"), host, chs "/", port, ssl⟩, ?_,
        ⟨user, pass, host, chs "/", port, ssl⟩, ?_, ⟨user, pass, host, vhost, port, ssl⟩, ?_, hh, rfl⟩
      · rw [hs]
        cases ho : o.ssl with
        | true => exact Or.inl ⟨⟨rfl, rfl⟩, hu, rfl⟩
        | false => exact Or.inr ⟨by simp, rfl⟩
      · by_cases hp : 0 ≤ o.port
        · rw [if_pos hp] at hport; exact Or.inl ⟨hp, hu, by rw [hport]⟩
        · rw [if_neg hp] at hport; exact Or.inr ⟨by omega, by rw [hport]⟩
      · cases hn : o.username with
        | none => exact Or.inl ⟨rfl, rfl⟩
        | some u =>
          refine Or.inr ⟨u, rfl, hu, ?_, rfl⟩
          rcases hcred with ⟨h, _⟩ | ⟨_, h, _⟩
          · exact h
          · rw [h] at hn; cases hn
      · cases hn : o.password with
        | none => exact Or.inl ⟨rfl, rfl⟩
        | some u =>
          refine Or.inr ⟨u, rfl, hu, ?_, rfl⟩
          rcases hcred with ⟨h, _⟩ | ⟨_, _, h, _⟩
          · exact h
          · rw [h] at hn; cases hn
      · rcases hcred with ⟨h, h1, h2⟩ | ⟨h, h1, h2, h3, h4, h5⟩
        · exact Or.inl ⟨h, by rw [h1, h2]⟩
        · exact Or.inr ⟨h, hu, user, pass, h3, h4, h5, rfl⟩
      · cases hn : o.vhost with
        | none => exact Or.inl ⟨rfl, by rw [hv, hn]; rfl⟩
        | some v => exact Or.inr ⟨v, rfl, hu, by rw [hv, hn]; rfl⟩

end Rmq.ToolsM
