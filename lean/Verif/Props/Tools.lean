import Verif.Proofs.Tools3
import Verif.Props.Url
import Verif.Props.Consume
/-!
# The command line tools: C68–C75
-/
namespace Rmq
open ToolsM ToolsSpec UrlM

/-! ## A shell for the examples -/

/-- A shell in which every call succeeds; reads give `rd`, writes take two bytes at a time, commands end as `w` says. -/
def demoShell (recv : Bytes) (rd : List (Nat × ReadAns)) (w : WaitAns) : Shell :=
  { net := { netEnv [] [] [(0, .data recv), (1, .data recv)] [] with send := fun _ b => .sent b.length, fuel := 60 }
    read := fun t => (rd.lookup t).getD (.data [])
    write := fun _ b => .wrote (min 2 b.length)
    alloc := fun _ _ => true
    pipe := fun _ => some (7, 8)
    spawn := fun _ => true
    close := fun _ _ => true
    wait := fun _ => w
    fuel := 60 }
def demoProc : Proc := ⟨⟨demoConn 4096, none⟩, []⟩
def qosOkBytes : Bytes := [1, 0, 1, 0, 0, 0, 4, 0, 60, 0, 11, 206]
def consumeOkFrame : Bytes := [1, 0, 1, 0, 0, 0, 7, 0, 60, 0, 21, 2, 99, 116, 206]
/-- A delivery with tag 5. -/
def deliverFrame : Bytes := [1, 0, 1, 0, 0, 0, 18, 0, 60, 0, 60, 2, 99, 116, 0, 0, 0, 0, 0, 0, 0, 5, 0, 0, 0, 206]
def headerFrame (n : UInt8) : Bytes := [2, 0, 1, 0, 0, 0, 14, 0, 60, 0, 0, 0, 0, 0, 0, 0, 0, 0, n, 0, 0, 206]
def bodyFrame3 : Bytes := [3, 0, 1, 0, 0, 0, 3, 97, 98, 99, 206]

/-! ## C68: whole input, whole output -/

/-- What the tool read is everything the standard input gave, up to the end of the file — and the end of the file was met. -/
theorem C68_read (S : Shell) (p : Proc) (b : Bytes) (ok : Bool) (p' : Proc) (h : readAll S p = .ok (b, ok) p') :
    ∃ seg asked, p'.acts = p.acts ++ (seg ++ [.read asked []]) ∧ 0 < asked ∧ b = inputOf seg ∧ ∀ a ∈ seg, ∀ k, a ≠ .read k [] := by
  have := readAll_ext S p
  rw [h] at this
  obtain ⟨seg, h1, seg', asked, rfl, h2, h3, h4⟩ := this
  exact ⟨seg', asked, h1, h2, h3, fun a ha => (h4 a ha).1⟩

/-- It ends otherwise only with exit status 1 after a read that failed. -/
theorem C68_read_exit (S : Shell) (p : Proc) (e : Int) (p' : Proc) (h : readAll S p = .err e p') :
    e = 1 ∧ ∃ seg, p'.acts = p.acts ++ (seg ++ [.readFail]) := by
  have := readAll_ext S p
  rw [h] at this
  obtain ⟨h0, seg, h1, seg', rfl⟩ := this
  exact ⟨h0, seg', h1⟩

/-- Everything is written, in order, to that descriptor and nothing else is done. -/
theorem C68_write (S : Shell) (fd : Nat) (data : Bytes) (p p' : Proc) (h : writeAll S fd data p = .ok () p') :
    ∃ seg, p'.acts = p.acts ++ seg ∧ outputOf fd seg = data ∧ ∀ a ∈ seg, ∃ b, a = .write fd b := by
  have := writeLoop_ext S fd S.fuel data p
  unfold writeAll at h; rw [h] at this
  exact this

/-- It ends otherwise only with exit status 1 after a write that failed; what was written is a beginning of the data. -/
theorem C68_write_exit (S : Shell) (fd : Nat) (data : Bytes) (p : Proc) (e : Int) (p' : Proc) (h : writeAll S fd data p = .err e p') :
    e = 1 ∧ ∃ seg, p'.acts = p.acts ++ (seg ++ [.writeFail fd]) ∧ outputOf fd seg <+: data := by
  have := writeLoop_ext S fd S.fuel data p
  unfold writeAll at h; rw [h] at this
  obtain ⟨h0, seg, h1, seg', rfl, h2, _⟩ := this
  exact ⟨h0, seg', h1, h2⟩

theorem readLoop_no_ub (S : Shell) (n : Nat) : ∀ (space : Nat) (ok : Bool) (buf : Bytes) (p : Proc), readLoop S n space ok buf p ≠ .ub := by
  induction n with
  | zero => intro _ _ _ _ h; cases h
  | succ n ih =>
    intro space ok buf p
    unfold readLoop
    cases hr : S.read p.acts.length with
    | intr => exact ih _ _ _ _
    | error => simp
    | data b =>
      simp only
      split
      · simp
      · split
        · simp
        · split
          · exact ih _ _ _ _
          · exact ih _ _ _ _

theorem writeLoop_no_ub (S : Shell) (fd n : Nat) : ∀ (data : Bytes) (p : Proc), writeLoop S fd n data p ≠ .ub := by
  induction n with
  | zero => intro _ _ h; cases h
  | succ n ih =>
    intro data p
    unfold writeLoop
    split
    · cases hw : S.write p.acts.length data with
      | error => simp
      | wrote k => exact ih _ _
    · simp

/-- Neither reads nor writes outside its buffer. -/
theorem C68_safe (S : Shell) (fd : Nat) (data : Bytes) (p : Proc) : readAll S p ≠ .ub ∧ writeAll S fd data p ≠ .ub :=
  ⟨readLoop_no_ub S _ _ _ _ _, writeLoop_no_ub S fd _ _ _⟩

theorem readLoop_ptr (S : Shell) (hS : ∀ t k, S.alloc t k = true) (n : Nat) : ∀ (space : Nat) (buf : Bytes) (p : Proc) (r : Bytes × Bool) (p' : Proc),
    readLoop S n space true buf p = .ok r p' → r.2 = true := by
  induction n with
  | zero => intro _ _ _ _ _ h; cases h
  | succ n ih =>
    intro space buf p r p'
    unfold readLoop
    cases hr : S.read p.acts.length with
    | intr => exact ih _ _ _ _ _
    | error => intro h; cases h
    | data b =>
      simp only [hS]
      split
      · intro h; cases h; rfl
      · split
        · intro h; cases h
        · split
          · exact ih _ _ _ _ _
          · exact ih _ _ _ _ _

/-- While memory is available the block with the bytes exists. -/
theorem C68_block_partial (S : Shell) (hS : ∀ t k, S.alloc t k = true) (p : Proc) (b : Bytes) (ok : Bool) (p' : Proc)
    (h : readAll S p = .ok (b, ok) p') : ok = true := by
  unfold readAll at h; simp only [hS] at h
  exact readLoop_ptr S hS _ _ _ _ _ _ h

/-- Missing in general: without memory for a larger block, an input of exactly 4096 bytes is "read", the length is 4096 and the
pointer NULL. -/
theorem C68_null :
    let S := { demoShell [] [(1, .data (List.replicate 4096 97))] .signalled with alloc := fun _ k => decide (k = 4096) }
    let r := readAll S demoProc
    r.val?.map (fun x => (x.1.length, x.2)) = some (4096, false) := by decide +kernel

example : (readAll (demoShell [] [(1, .data [97, 98]), (2, .intr), (3, .data [99])] .signalled) demoProc).val? = some ([97, 98, 99], true) := by
  decide +kernel
example : (writeAll (demoShell [] [] .signalled) 8 [97, 98, 99] demoProc).state?.map (fun p => (outputOf 8 p.acts, p.acts.length)) =
    some ([97, 98, 99], 2) := by decide +kernel

/-! ## C69: the body of a message is copied -/

theorem C69_copy_partial (S : Shell) (fd : Nat) (p p' : Proc) (h : copyBody S fd p = .ok () p') :
    ∃ seg, p'.acts = p.acts ++ seg ∧ Copied fd seg := by
  have := copyBody_ext S fd p
  rw [h] at this
  exact this

/-- For bodies below 2^64 octets: exactly as many octets as the header announced. -/
theorem C69_size (fd : Nat) (seg : List Act) (h : Copied fd seg) (hlt : (outputOf fd seg).length < 2 ^ 64) :
    ∃ f fs cls size flags props, ToolsSpec.framesOf seg = f :: fs ∧ f.payload = .header cls size flags props ∧ (outputOf fd seg).length = size.toNat ∧
      outputOf fd seg = bodyOf fs := by
  obtain ⟨f, cls, size, flags, props, bodies, h1, h2, _, h4, h5⟩ := h.frames
  rw [h5] at hlt ⊢
  exact ⟨f, bodies, cls, size, flags, props, h1, h2, by omega, rfl⟩

/-- An exit leaves a beginning of the body written, and nothing acknowledged. -/
theorem C69_exit (S : Shell) (fd : Nat) (p : Proc) (e : Int) (p' : Proc) (h : copyBody S fd p = .err e p') :
    e = 1 ∧ ∃ seg, p'.acts = p.acts ++ seg ∧ outputOf fd seg <+: bodyOf (ToolsSpec.framesOf seg) ∧ acksOf seg = [] := by
  have := copyBody_ext S fd p
  rw [h] at this
  obtain ⟨h0, seg, h1, h2, h3⟩ := this
  refine ⟨h0, seg, h1, h3, ?_⟩
  clear h1 h3
  induction seg with
  | nil => rfl
  | cons a l ih =>
    have := ih (fun x hx => h2 x (List.mem_cons_of_mem _ hx))
    cases a with
    | ack t => exact absurd rfl ((h2 _ List.mem_cons_self).1 t)
    | _ => simpa [acksOf] using this

/-- amqp-get: either there was no message and nothing was written, or the body of one message went to the standard output. -/
theorem C69_get (S : Shell) (queue : Bytes) (p : Proc) (got : Bool) (p' : Proc) (h : doGet S queue p = .ok got p') :
    ∃ seg, p'.acts = p.acts ++ .get queue :: seg ∧ if got then Copied 1 seg else seg = [] := by
  have := doGet_ext S queue p
  rw [h] at this
  obtain ⟨_, h1, seg, rfl, h2⟩ := this
  exact ⟨seg, h1, h2⟩

/-- Why partial: a body frame that goes beyond the announced size is written out whole and the copying goes on. -/
theorem C69_overrun :
    let r := copyBody (demoShell (headerFrame 1 ++ bodyFrame3) [] .signalled) 8 demoProc
    r.errCode? = some 1 ∧ r.state?.map (fun p => outputOf 8 p.acts) = some [97, 98, 99] := by decide +kernel

example :
    let r := copyBody (demoShell (headerFrame 3 ++ bodyFrame3) [] .signalled) 8 demoProc
    r.val? = some () ∧ r.state?.map (fun p => outputOf 8 p.acts) = some [97, 98, 99] := by decide +kernel

/-! ## C70: amqp-consume acknowledges exactly the messages whose command succeeded -/

/-- A run that ends normally: the calls that start consuming, then as many rounds as --count says, each either an ignored frame or
a message handed to the command and acknowledged exactly when the command exited with status 0. -/
theorem C70_consume_partial (S : Shell) (queue : Bytes) (noAck : Bool) (count prefetch : Int) (argv : List Bytes) (p p' : Proc)
    (h : doConsume S queue noAck count prefetch argv p = .ok () p') :
    ∃ rest bs, p'.acts = p.acts ++ (startCalls queue noAck count prefetch ++ rest) ∧ Rounds noAck argv bs rest ∧
      (bs.length : Int) = count := by
  have := doConsume_ext S queue noAck count prefetch argv p
  rw [h] at this
  obtain ⟨seg, h1, rest, bs, rfl, h2, _, h3⟩ := this
  exact ⟨rest, bs, h1, h2, h3⟩

/-- A run that ends with an exit: some complete rounds, then one that was cut short before its command succeeded — or whose
acknowledgement was attempted. -/
theorem C70_exit (S : Shell) (queue : Bytes) (noAck : Bool) (count prefetch : Int) (argv : List Bytes) (p : Proc) (e : Int) (p' : Proc)
    (h : doConsume S queue noAck count prefetch argv p = .err e p') :
    e = 1 ∧ ∃ seg, p'.acts = p.acts ++ seg ∧ (seg <+: startCalls queue noAck count prefetch ∨
      ∃ bs done last, seg = startCalls queue noAck count prefetch ++ (done ++ last) ∧ Rounds noAck argv bs done ∧
        (NoSuccess last ∨ Round noAck argv true last) ∧ (0 ≤ count → (bs.length : Int) < count)) := by
  have := doConsume_ext S queue noAck count prefetch argv p
  rw [h] at this
  obtain ⟨h0, seg, h1, h2⟩ := this
  refine ⟨h0, seg, h1, ?_⟩
  rcases h2 with h2 | ⟨done, last, bs, h2, h3, h4, h5⟩
  · exact Or.inl h2
  · exact Or.inr ⟨bs, done, last, h2, h3, h4, h5⟩

theorem acksOf_append (a b : List Act) : acksOf (a ++ b) = acksOf a ++ acksOf b := by
  induction a with
  | nil => rfl
  | cons x l ih => cases x <;> simp [acksOf, ih]

theorem acksOf_copy {fd : Nat} {l : List Act} (h : ∀ a ∈ l, (∃ f, a = .frame f) ∨ (∃ b, a = .write fd b)) : acksOf l = [] := by
  induction l with
  | nil => rfl
  | cons a l ih =>
    have := ih (fun x hx => h x (List.mem_cons_of_mem _ hx))
    rcases h a List.mem_cons_self with ⟨f, rfl⟩ | ⟨b, rfl⟩ <;> simpa [acksOf] using this

/-- No delivery is acknowledged when acknowledgements are not wanted. -/
theorem C70_no_ack (argv : List Bytes) (bs : List Bool) (l : List Act) (h : Rounds true argv bs l) : acksOf l = [] := by
  induction h with
  | nil => rfl
  | cons b bs l ls hr _ ih =>
    rw [acksOf_append, ih]
    cases hr with
    | other f _ => rfl
    | message f tag rd wr copy r hd hc hne => simp [acksOf_append, acksOf, acksOf_copy hc.only]

/-- A round acknowledges at most its own delivery, and exactly when its command exited with status 0. -/
theorem C70_round (argv : List Bytes) (b : Bool) (l : List Act) (h : Round false argv b l) (t : UInt64) :
    t ∈ acksOf l ↔ (∃ f, Act.frame f ∈ l.head? ∧ IsDelivery f t) ∧ .wait (.exited 0) ∈ l := by
  cases h with
  | other f hn =>
    simp only [acksOf, List.not_mem_nil, List.head?_cons, Option.mem_def, Option.some.injEq, Act.frame.injEq, false_iff]
    rintro ⟨⟨g, rfl, args, hg, _⟩, _⟩
    exact hn _ hg
  | message f tag rd wr copy r hd hc hne =>
    have hw : ∀ r', Act.wait r' ∉ copy := fun r' hm => by
      rcases hc.only _ hm with ⟨_, h⟩ | ⟨_, h⟩ <;> cases h
    have hs : ∀ t', IsDelivery f t' ↔ t' = tag := fun t' => by
      obtain ⟨args, h1, h2⟩ := hd
      constructor
      · rintro ⟨args', h3, h4⟩
        rw [h1] at h3; cases h3; rw [h2] at h4; cases h4; rfl
      · rintro rfl; exact ⟨args, h1, h2⟩
    by_cases hr : r = .exited 0
    · subst hr
      simp [acksOf_append, acksOf, acksOf_copy hc.only, hs]
    · have hr' : ¬ (WaitAns.exited 0 = r) := fun h => hr h.symm
      simp [acksOf_append, acksOf, acksOf_copy hc.only, hs, hr, hr', hw]

/-- The command's exit status decides: with 0 the delivery is acknowledged, with anything else not. -/
theorem C70_demo :
    let r := fun w => doConsume (demoShell (qosOkBytes ++ consumeOkFrame ++ deliverFrame ++ headerFrame 3 ++ bodyFrame3) [] w)
      [113] false 1 (-1) [[99, 97, 116]] demoProc
    (r (.exited 0)).val? = some () ∧ (r (.exited 0)).state?.map (fun p => (outputOf 8 p.acts, acksOf p.acts, traceOf p.acts)) =
      some ([97, 98, 99], [5], ['F', 'S', 'F', 'F', 'A']) ∧
    (r (.exited 1)).val? = some () ∧ (r (.exited 1)).state?.map (fun p => (outputOf 8 p.acts, acksOf p.acts, traceOf p.acts)) =
      some ([97, 98, 99], [], ['F', 'S', 'F', 'F']) := by decide +kernel

/-- Why partial: frames that are not deliveries count.  With `--count 1` a stray content header is enough to end the tool: no message was
consumed. -/
theorem C70_count_other :
    let r := doConsume (demoShell (qosOkBytes ++ consumeOkFrame ++ headerFrame 0) [] (.exited 0)) [113] false 1 (-1) [[99, 97, 116]] demoProc
    r.val? = some () ∧ r.state?.map (fun p => traceOf p.acts) = some ['F'] := by decide +kernel

theorem pipeline_acts (S : Shell) (argv : List Bytes) (p : Proc) (rd wr fd : Nat) (p' : Proc) (hp : S.pipe p.acts.length = some (rd, wr))
    (h : pipeline S argv p = .ok fd p') :
    p'.acts = p.acts ++ [.pipe rd wr, .spawn argv (if rd = 0 ∨ wr = 0 then none else some rd), .close rd] := by
  unfold pipeline at h
  rw [hp] at h
  by_cases hs : S.spawn (p.push (.pipe rd wr)).acts.length = false
  · simp only [if_pos hs] at h; cases h
  · simp only [if_neg hs] at h
    by_cases hc : S.close ((p.push (.pipe rd wr)).push (.spawn argv (if rd = 0 ∨ wr = 0 then none else some rd))).acts.length rd = true
    · rw [if_pos hc] at h; cases h; simp [Proc.push]
    · rw [if_neg hc] at h; cases h

/-- And: if the tool was started with its standard input closed, the pipe gets descriptor 0 and the command has no standard input. -/
theorem C70_closed_stdin (S : Shell) (argv : List Bytes) (p : Proc) (wr : Nat) (fd : Nat) (p' : Proc)
    (hp : S.pipe p.acts.length = some (0, wr)) (h : pipeline S argv p = .ok fd p') : .spawn argv none ∈ p'.acts := by
  rw [pipeline_acts S argv p 0 wr fd p' hp h]; simp

/-! ## C71: amqp-publish publishes what it was given -/

/-- One message with the body of the command line; or one with the whole of the standard input; or one per line. -/
theorem C71_publish_partial (S : Shell) (o : PubOpts) (stdin : Bytes) (p p' : Proc) (h : publishMain S o stdin p = .ok () p') :
    ∃ seg, p'.acts = p.acts ++ seg ∧
      ((∃ b, o.body = some b ∧ o.lineBuffered = false ∧ publishedOf seg = [b]) ∨
       (∃ b, o.body = some b ∧ o.lineBuffered = true ∧ publishedOf seg = []) ∨
       (∃ cs, o.body = none ∧ o.lineBuffered = true ∧ Chunked stdin cs ∧ publishedOf seg = cs.map (fun c => c.takeWhile (· ≠ 0))) ∨
       (o.body = none ∧ o.lineBuffered = false ∧ publishedOf seg = [inputOf seg] ∧ ∃ k, 0 < k ∧ .read k [] ∈ seg)) := by
  have := publishMain_ext S o stdin p
  rw [h] at this
  obtain ⟨seg, h1, _, h2⟩ := this
  refine ⟨seg, h1, ?_⟩
  rcases h2 with ⟨b, h2, h3, rfl⟩ | ⟨b, h2, h3, rfl⟩ | ⟨cs, h2, h3, h4, rfl⟩ | ⟨rd, k, h2, h3, h4, h5, rfl⟩
  · exact Or.inl ⟨b, h2, h3, rfl⟩
  · exact Or.inr (Or.inl ⟨b, h2, h3, rfl⟩)
  · refine Or.inr (Or.inr (Or.inl ⟨cs, h2, h3, h4, ?_⟩))
    clear h1 h4
    induction cs with
    | nil => rfl
    | cons c cs ih => rw [List.map_cons, List.map_cons, ← ih]; rfl
  · refine Or.inr (Or.inr (Or.inr ⟨h2, h3, ?_, k, h5, by simp⟩))
    have hpub : ∀ l : List Act, (∀ a ∈ l, publishedOf [a] = []) → publishedOf l = [] := by
      intro l hl
      induction l with
      | nil => rfl
      | cons a l ih =>
        have e : publishedOf (a :: l) = publishedOf [a] ++ publishedOf l := publishedOf_append [a] l
        rw [e, hl a List.mem_cons_self, ih (fun x hx => hl x (List.mem_cons_of_mem _ hx))]; rfl
    rw [publishedOf_append, inputOf_append, hpub rd (fun a ha => (h4 a ha).2)]
    simp [publishedOf, pubAct, inputOf]

theorem Chunked.line {l rest : Bytes} {cs : List Bytes} (h : Chunked (l ++ 10 :: rest) cs) (h10 : (10 : UInt8) ∉ l) (hl : l.length ≤ 32766) :
    ∃ cs', cs = (l ++ [10]) :: cs' ∧ Chunked rest cs' := by
  generalize he : l ++ 10 :: rest = t at h
  cases h with
  | nil => simp at he
  | cons c r cs h1 h2 h3 h4 h5 =>
    rcases List.append_eq_append_iff.1 he with ⟨a, rfl, ha⟩ | ⟨b, rfl, hb⟩
    · cases a with
      | nil =>
        rw [List.append_nil] at h4 h3
        rcases h4 with h4 | h4 | h4
        · exact absurd (List.mem_of_getLast? h4) h10
        · omega
        · rw [h4] at ha; cases ha
      | cons x a =>
        rw [List.cons_append] at ha
        injection ha with hx ha
        subst hx
        cases a with
        | nil => exact ⟨cs, rfl, by rw [ha]; exact h5⟩
        | cons y a =>
          exact absurd (by simp [List.dropLast_append_of_ne_nil]) h3
    · rcases h4 with h4 | h4 | h4
      · exact absurd (List.mem_append_left _ (List.mem_of_getLast? h4)) h10
      · rw [List.length_append] at hl; omega
      · rw [h4] at hb; simp at hb

/-- Line mode on a text of lines of at most 32766 octets without NUL: one message per line, the newline included. -/
theorem C71_lines (lines : List Bytes) (hl : ∀ l ∈ lines, (10 : UInt8) ∉ l ∧ (0 : UInt8) ∉ l ∧ l.length ≤ 32766) (cs : List Bytes)
    (h : Chunked (lines.flatMap (· ++ [10])) cs) : cs.map (fun c => c.takeWhile (· ≠ 0)) = lines.map (· ++ [10]) := by
  induction lines generalizing cs with
  | nil =>
    rw [List.flatMap_nil] at h
    generalize he : ([] : Bytes) = t at h
    cases h with
    | nil => rfl
    | cons c r cs h1 => rw [List.nil_eq, List.append_eq_nil_iff] at he; exact absurd he.1 h1
  | cons l ls ih =>
    rw [List.flatMap_cons, List.append_assoc] at h
    obtain ⟨h1, h2, h3⟩ := hl l List.mem_cons_self
    obtain ⟨cs', rfl, hc⟩ := Chunked.line h h1 h3
    rw [List.map_cons, List.map_cons, ih (fun x hx => hl x (List.mem_cons_of_mem _ hx)) cs' hc]
    congr 1
    exact cstring_good (b := l ++ [10]) (by simp [h2])

theorem publishMain_bad (S : Shell) (o : PubOpts) (stdin : Bytes) (p p' : Proc) (hs : List Bytes) (x : Bytes) (ho : o.headers = some hs)
    (hm : x ∈ hs) (hc : (58 : UInt8) ∉ x) (h : publishMain S o stdin p = .ok () p') :
    o.lineBuffered = true ∧ (o.body ≠ none ∨ stdin = []) := by
  have hn : ∀ b, NeverOk (doPublish S o b) := fun b => doPublish_never S o b hs x ho hm hc
  unfold publishMain at h
  split at h
  · cases h
  · cases hb : o.body with
    | some b =>
      rw [hb] at h
      simp only at h
      cases hl : o.lineBuffered with
      | true => exact ⟨rfl, Or.inl (by simp)⟩
      | false => rw [hl] at h; exact absurd h (hn b _ _ _)
    | none =>
      rw [hb] at h
      simp only at h
      cases hl : o.lineBuffered with
      | true =>
        refine ⟨rfl, Or.inr ?_⟩
        rw [hl, if_pos rfl] at h
        unfold lineLoop at h
        cases hf : fgets MAX_LINE stdin with
        | none => exact fgets_none hf
        | some r =>
          rw [hf] at h
          exact absurd h (NeverOk.bind_left (hn _) _ _ _ _)
      | false =>
        rw [hl, if_neg (by simp)] at h
        refine absurd h (NeverOk.bind_right _ (fun r => ?_) _ _ _)
        obtain ⟨b, ok⟩ := r
        intro s a s'
        by_cases hok : ok = false ∧ b ≠ []
        · simp only [if_pos hok]; intro h; cases h
        · simp only [if_neg hok]; exact hn _ _ _ _

/-- Every message goes to the exchange and with the routing key given (empty by default), and with the properties asked for. -/
theorem C71_props (S : Shell) (o : PubOpts) (stdin : Bytes) (p p' : Proc) (h : publishMain S o stdin p = .ok () p') :
    ∃ seg, p'.acts = p.acts ++ seg ∧ ∀ ex rk flags props body, .publish ex rk flags props body ∈ seg →
      ex = o.exchange.getD [] ∧ rk = o.routingKey.getD [] ∧ (o.exchange ≠ none ∨ o.routingKey ≠ none) ∧
      ∃ t, flaggedProps flags props basicProps = wantedProps o t ∧
        ((o.headers = none ∨ o.headers = some []) ∧ t = none ∨ ∃ hs tab, o.headers = some hs ∧ t = some tab ∧ HeaderDefs hs tab) := by
  have := publishMain_ext S o stdin p
  rw [h] at this
  obtain ⟨seg, h1, h0, h2⟩ := this
  refine ⟨seg, h1, ?_⟩
  have hfin : ∀ ex rk flags props body b, Act.publish ex rk flags props body = pubAct o b →
      (∀ hs x, o.headers = some hs → x ∈ hs → (58 : UInt8) ∈ x) →
      ex = o.exchange.getD [] ∧ rk = o.routingKey.getD [] ∧ (o.exchange ≠ none ∨ o.routingKey ≠ none) ∧
      ∃ t, flaggedProps flags props basicProps = wantedProps o t ∧
        ((o.headers = none ∨ o.headers = some []) ∧ t = none ∨ ∃ hs tab, o.headers = some hs ∧ t = some tab ∧ HeaderDefs hs tab) := by
    intro ex rk flags props body b hb hh
    unfold pubAct at hb
    injection hb with e1 e2 e3 e4 e5
    refine ⟨e1, e2, h0, optTable o, by rw [e3, e4]; exact pubProps_wire o, ?_⟩
    unfold optTable
    cases ho : o.headers with
    | none => exact Or.inl ⟨Or.inl rfl, rfl⟩
    | some hs =>
      cases hs with
      | nil => exact Or.inl ⟨Or.inr rfl, rfl⟩
      | cons x xs => exact Or.inr ⟨x :: xs, _, rfl, rfl, headerTable_good (fun y hy => hh _ y ho hy)⟩
  have hbad : (∃ ex rk flags props body, Act.publish ex rk flags props body ∈ seg) → ∀ hs x, o.headers = some hs → x ∈ hs → (58 : UInt8) ∈ x := by
    rintro ⟨ex, rk, flags, props, body, hmem⟩ hs x ho hm
    refine Classical.byContradiction fun hc => ?_
    obtain ⟨g1, g2⟩ := publishMain_bad S o stdin p p' hs x ho hm hc h
    rcases h2 with ⟨b, h2, h3, rfl⟩ | ⟨b, h2, h3, rfl⟩ | ⟨cs, h2, h3, h4, rfl⟩ | ⟨rd, k, h2, h3, h4, h5, rfl⟩
    · rw [g1] at h3; cases h3
    · cases hmem
    · rcases g2 with g2 | g2
      · exact g2 h2
      · rw [g2] at h4
        generalize he : ([] : Bytes) = t at h4
        cases h4 with
        | nil => cases hmem
        | cons c r cs hne => rw [List.nil_eq, List.append_eq_nil_iff] at he; exact absurd he.1 hne
    · rw [g1] at h3; cases h3
  intro ex rk flags props body hmem
  have hb : ∃ b, Act.publish ex rk flags props body = pubAct o b := by
    rcases h2 with ⟨b, h2, h3, rfl⟩ | ⟨b, h2, h3, rfl⟩ | ⟨cs, h2, h3, h4, rfl⟩ | ⟨rd, k, h2, h3, h4, h5, rfl⟩
    · exact ⟨b, List.mem_singleton.1 hmem⟩
    · cases hmem
    · obtain ⟨c, _, hc⟩ := List.mem_map.1 hmem
      exact ⟨_, hc.symm⟩
    · rcases List.mem_append.1 hmem with hr | hr
      · exact absurd (h4 _ hr).2 (by simp [publishedOf])
      · rcases List.mem_cons.1 hr with hr | hr
        · cases hr
        · exact ⟨_, List.mem_singleton.1 hr⟩
  obtain ⟨b, hb⟩ := hb
  exact hfin ex rk flags props body b hb (hbad ⟨_, _, _, _, _, hmem⟩)

/-- Why partial: a header definition without a colon makes every publication fail — after the message was announced to the server. -/
theorem C71_no_colon (S : Shell) (o : PubOpts) (b : Bytes) (hs : List Bytes) (x : Bytes) (ho : o.headers = some hs) (hm : x ∈ hs)
    (hc : (58 : UInt8) ∉ x) (p p' : Proc) : doPublish S o b p ≠ .ok () p' := doPublish_never S o b hs x ho hm hc p () p'

/-- And: --line-buffered together with --body publishes nothing, and a NUL octet cuts a line short. -/
theorem C71_line_body :
    let r := publishMain (demoShell [] [] .signalled) { exchange := some [120], body := some [97], lineBuffered := true } [98, 10] demoProc
    r.val? = some () ∧ r.state?.map (fun p => publishedOf p.acts) = some [] := by decide +kernel
theorem C71_nul :
    let r := publishMain (demoShell [] [] .signalled) { exchange := some [120], lineBuffered := true } [98, 0, 99, 10, 100, 10] demoProc
    r.val? = some () ∧ r.state?.map (fun p => publishedOf p.acts) = some [[98], [100, 10]] := by decide +kernel

/-- The standard input is one message. -/
example :
    let r := publishMain (demoShell [] [(1, .data [97, 98]), (2, .data [99])] .signalled)
      { exchange := some [120], headers := some [[107, 58, 32, 118]] } [] demoProc
    r.val? = some () ∧ r.state?.map (fun p => publishedOf p.acts) = some [[97, 98, 99]] := by decide +kernel

/-- With an input of exactly 4096 octets and no memory for a larger block, the NULL pointer of C68_null is what gets published. -/
theorem C71_null :
    let S := { demoShell [] [(1, .data (List.replicate 4096 97))] .signalled with alloc := fun _ k => decide (k = 4096) }
    (publishMain S { exchange := some [120] } [] demoProc).isUB = true := by decide +kernel

/-! ## C72: the authentication file -/

/-- Accepted are exactly the files with a user name and a password (without newline or NUL, at most 117 octets) in their two lines. -/
theorem C72_accepts_partial (file u p : Bytes) :
    readAuthfile file = .ok (u, p) () ↔
      file = chs "username:" ++ u ++ [10] ++ chs "password:" ++ p ++ [10] ∧ GoodToken u ∧ GoodToken p := readAuthfile_ok file u p

/-- Why partial: a file in which "username:" or "password:" is followed by nothing at all, or by a NUL octet, makes the tool read
before the start of a string.  Exactly these. -/
theorem C72_out_of_bounds (file : Bytes) :
    readAuthfile file = .ub ↔
      ∃ start tail, file = start ++ tail ∧ (tail = [] ∨ ∃ t, tail = 0 :: t) ∧
        (start = chs "username:" ∨ ∃ u, GoodToken u ∧ start = chs "username:" ++ u ++ [10] ++ chs "password:") := readAuthfile_ub file

example : readAuthfile (chs "username:me\npassword:secret\n") = .ok (chs "me", chs "secret") () := by decide +kernel
example : readAuthfile (chs "username:") = .ub := by decide +kernel
example : readAuthfile (chs "username:me\npassword:secret") = .err 1 () := by decide +kernel

/-! ## C73: names are printed on one line, reversibly -/

/-- Printing a name never writes outside its buffer: there is always a result, ended by a NUL. -/
theorem C73_safe (name : Bytes) : ∃ text, stringifyBytes name () = .ok (text ++ [0]) () ∧ ∀ c ∈ text, 32 ≤ c ∧ c ≠ 127 := by
  refine ⟨name.flatMap escape, ?_, ?_⟩
  · have := stringifyLoop_ok (name.length * 4 + 1) name [] (by simp)
    simpa [stringifyBytes] using this
  · intro c hc
    obtain ⟨b, _, hb⟩ := List.mem_flatMap.1 hc
    exact escape_printable b c hb

/-- Different names without a backslash are printed differently. -/
theorem C73_injective_partial (a b : Bytes) (ha : (92 : UInt8) ∉ a) (hb : (92 : UInt8) ∉ b) (h : stringifyBytes a () = stringifyBytes b ()) :
    a = b := by
  have e : ∀ n : Bytes, stringifyBytes n () = .ok (n.flatMap escape ++ [0]) () := fun n => by
    have := stringifyLoop_ok (n.length * 4 + 1) n [] (by simp)
    simpa [stringifyBytes] using this
  rw [e a, e b] at h
  injection h with h
  exact stringify_inj a b ha hb (List.append_cancel_right h)

/-- A printable name is printed as it is. -/
theorem C73_plain (name : Bytes) (h : ∀ c ∈ name, 32 ≤ c ∧ c ≠ 127) : stringifyBytes name () = .ok (name ++ [0]) () := by
  have := stringifyLoop_ok (name.length * 4 + 1) name [] (by simp)
  have e : name.flatMap escape = name := by
    clear this
    induction name with
    | nil => rfl
    | cons c l ih =>
      rw [List.flatMap_cons, ih (fun x hx => h x (List.mem_cons_of_mem _ hx))]
      have hc : escape c = [c] := by unfold escape; exact if_pos (h c List.mem_cons_self)
      rw [hc]; rfl
  rw [e] at this
  simpa [stringifyBytes] using this

/-- Why partial: a backslash is not escaped. -/
theorem C73_collision : stringifyBytes [92, 48, 48, 49] () = stringifyBytes [1] () := by decide +kernel

/-! ## C74: the queue of amqp-consume -/

/-- The queue is declared and bound as the options say, and the name used is the one given or the server's. -/
theorem C74_setup_partial (S : Shell) (queue exchange routingKey : Option Bytes) (declare exclusive : Bool) (p : Proc) (name : Bytes) (p' : Proc)
    (h : setupQueue S queue exchange routingKey declare exclusive p = .ok name p') :
    ∃ seg, p'.acts = p.acts ++ seg ∧ SetUp queue exchange routingKey declare exclusive seg name := by
  have := setupQueue_ext S queue exchange routingKey declare exclusive p
  rw [h] at this
  exact this

/-- A routing key without an exchange is refused before anything is done. -/
theorem C74_refused (S : Shell) (queue : Option Bytes) (k : Bytes) (declare exclusive : Bool) (p : Proc) :
    setupQueue S queue none (some k) declare exclusive p = .err 1 p := by
  unfold setupQueue
  rw [if_pos ⟨rfl, by simp⟩]; rfl

/-- Why partial: an exchange without a routing key never leads to a queue (strdup of a NULL pointer, if the declaration succeeds). -/
theorem C74_no_key (S : Shell) (queue : Option Bytes) (ex : Bytes) (declare exclusive : Bool) (p : Proc) (name : Bytes) (p' : Proc) :
    setupQueue S queue (some ex) none declare exclusive p ≠ .ok name p' := setupQueue_no_key S queue ex declare exclusive p name p'

/-- queue.declare-ok for the queue "q". -/
def declareOkFrame : Bytes := [1, 0, 1, 0, 0, 0, 14, 0, 50, 0, 11, 1, 113, 0, 0, 0, 0, 0, 0, 0, 0, 206]
def bindOkFrame : Bytes := [1, 0, 1, 0, 0, 0, 4, 0, 50, 0, 21, 206]

/-- What is asked of the server, for examples. -/
def callsOf : List Act → List String
  | [] => []
  | .call n _ :: l => n :: callsOf l
  | _ :: l => callsOf l

theorem C74_null_key :
    (setupQueue (demoShell declareOkFrame [] .signalled) none (some [120]) none false false demoProc).isUB = true := by decide +kernel

example :
    let r := setupQueue (demoShell (declareOkFrame ++ bindOkFrame ++ bindOkFrame) [] .signalled) none (some [120]) (some [44, 97, 44, 44, 98]) false
      false demoProc
    r.val? = some [113] ∧ r.state?.map (fun p => callsOf p.acts) = some ["amqp_queue_declare", "amqp_queue_bind", "amqp_queue_bind"] := by
  decide +kernel

/-! ## C75: where the tools connect to -/

/-- The options are accepted with this result exactly if the result is what they say. -/
theorem C75_options_partial (env : UEnv) (o : ConnOpts) (file : Option Bytes) (c : ConnTo) :
    connInfo env o file = .ok c () ↔ ConnectTo env o file c := connInfo_iff env o file c

theorem ptrStr_of_le {buf body tail : Bytes} (hb : buf = body ++ 0 :: tail) (c : UrlM.CStr) (hc : ∀ p, c = .ptr p → p ≤ body.length) :
    ∃ t, ptrStr buf c = some t := by
  cases c with
  | lit s => exact ⟨s, rfl⟩
  | ptr p =>
    have hp := hc p rfl
    refine ⟨(buf.drop p).takeWhile (· ≠ 0), ?_⟩
    show (if (0 : UInt8) ∈ buf.drop p then some ((buf.drop p).takeWhile (· ≠ 0)) else none) = _
    rw [if_pos]
    rw [hb, List.drop_append_of_le_length hp]
    simp

theorem thenR_ub {α β : Type} {r : Res Unit α} {f : α → Res Unit β} (h : thenR r f = .ub) : r = .ub ∨ ∃ a, r = .ok a () ∧ f a = .ub := by
  cases r with
  | ok a s => exact Or.inr ⟨a, rfl, h⟩
  | err e s => cases h
  | ub => exact Or.inl rfl
  | fuel => cases h

/-- No choice of options makes the tool read or write out of bounds, except with an authentication file of the kind of
C72_out_of_bounds. -/
theorem C75_safe (env : UEnv) (hcm : env.charMax ≤ 255) (o : ConnOpts) (hu : ∀ u, o.url = some u → (0 : UInt8) ∉ u) (file : Option Bytes)
    (h : connInfo env o file = .ub) : o.authfile ≠ none ∧ ∃ f, file = some f ∧ readAuthfile f = .ub := by
  unfold connInfo at h
  rcases thenR_ub h with h | ⟨c1, _, h⟩
  · exfalso
    unfold connUrl at h
    cases ho : o.url with
    | none => rw [ho] at h; cases h
    | some u =>
      rw [ho] at h
      obtain ⟨s, body', hr, hb, hl, hp⟩ := C43_safe env hcm u [] (hu u ho)
      rcases hr with hr | hr
      · have hq : ∀ c ∈ [s.info.user, s.info.password, s.info.host, s.info.vhost], ∃ t, ptrStr s.buf c = some t := fun c hc =>
          ptrStr_of_le hb c (fun p hcp => by rw [hl]; exact hp c hc p hcp)
        obtain ⟨a1, e1⟩ := hq s.info.user (by simp)
        obtain ⟨a2, e2⟩ := hq s.info.password (by simp)
        obtain ⟨a3, e3⟩ := hq s.info.host (by simp)
        obtain ⟨a4, e4⟩ := hq s.info.vhost (by simp)
        simp only [hr, e1, e2, e3, e4] at h
        cases h
      · simp only [hr] at h
        cases h
  rcases thenR_ub h with h | ⟨c2, _, h⟩
  · exfalso
    unfold connServer at h
    cases ho : o.server with
    | none => rw [ho] at h; cases h
    | some s =>
      rw [ho] at h
      simp only at h
      split at h
      · cases h
      · split at h
        · split at h
          · cases h
          · split at h
            · cases h
            · split at h <;> cases h
        · cases h
  rcases thenR_ub h with h | ⟨c3, _, h⟩
  · exfalso; unfold connSsl at h; split at h
    · split at h <;> cases h
    · cases h
  rcases thenR_ub h with h | ⟨c4, _, h⟩
  · exfalso; unfold connPort at h; split at h
    · split at h <;> cases h
    · cases h
  rcases thenR_ub h with h | ⟨c5, _, h⟩
  · exfalso; unfold connUser at h; split at h
    · cases h
    · split at h <;> cases h
  rcases thenR_ub h with h | ⟨c6, _, h⟩
  · exfalso; unfold connPass at h; split at h
    · cases h
    · split at h <;> cases h
  rcases thenR_ub h with h | ⟨c7, _, h⟩
  · unfold connAuth at h
    cases ho : o.authfile with
    | none => rw [ho] at h; cases h
    | some a =>
      rw [ho] at h
      simp only at h
      refine ⟨by simp, ?_⟩
      split at h
      · cases h
      · cases file with
        | none => cases h
        | some f =>
          refine ⟨f, rfl, ?_⟩
          cases hr : readAuthfile f with
          | ok r s => simp only [hr] at h; cases h
          | err e s => simp only [hr] at h; cases h
          | ub => rfl
          | fuel => simp only [hr] at h; cases h
  rcases thenR_ub h with h | ⟨c8, _, h⟩
  · exfalso; unfold connVhost at h; split at h
    · cases h
    · split at h <;> cases h
  · exfalso; unfold connHeartbeat at h; split at h <;> cases h

/-- Why partial: a port above 65535 is accepted after a colon if it is small modulo 2^32. -/
theorem C75_port_wraps :
    connInfo ⟨127, true⟩ { server := some (chs "h:4294972968") } none = .ok ⟨chs "guest", chs "guest", chs "h", chs "/", 5672, false⟩ () := by
  decide +kernel

/-- And: --ssl without --server keeps the port for connections without TLS. -/
theorem C75_ssl_port :
    connInfo ⟨127, true⟩ { ssl := true } none = .ok ⟨chs "guest", chs "guest", chs "localhost", chs "/", 5672, true⟩ () ∧
    connInfo ⟨127, true⟩ { ssl := true, server := some (chs "localhost") } none =
      .ok ⟨chs "guest", chs "guest", chs "localhost", chs "/", 5671, true⟩ () := by decide +kernel

example : connInfo ⟨127, true⟩ { url := some (chs "amqps://u:p@h/v") } none = .ok ⟨chs "u", chs "p", chs "h", chs "v", 5671, true⟩ () := by
  decide +kernel
example : connInfo ⟨127, true⟩ { url := some (chs "amqp://h"), vhost := some (chs "v") } none = .err 1 () := by decide +kernel

end Rmq
