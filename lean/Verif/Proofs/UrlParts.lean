import Verif.Proofs.UrlParse
/-!
# URL proofs: the components of a well-formed URL
-/
namespace Rmq.UrlM

theorem reserved_of_delim {f : Bool} {c : UInt8} (h : c ∉ reserved f) : isDelim f c = false ∧ c ≠ ch '%' ∧ c ≠ 0 := by
  unfold reserved at h
  unfold isDelim
  cases f <;> simp at h <;> simp [h]

theorem Encodes.noNul {f e s} (h : Encodes f e s) : 0 ∉ s := by
  induction h with
  | nil => simp
  | lit hc _ ih => simp only [List.mem_cons, not_or]; exact ⟨Ne.symm (reserved_of_delim hc).2.2, ih⟩
  | @esc a b x y c e s _ _ hc hp _ _ ih =>
    simp only [List.mem_cons, not_or]
    refine ⟨fun h => ?_, ih⟩
    rw [← h] at hc
    have : (0 : UInt8).toNat = 0 := rfl
    omega

theorem escVal_hex {env : UEnv} (hcm : 127 ≤ env.charMax) {a b : UInt8} {x y : Nat} (ha : IsHex a x) (hb : IsHex b y) (hle : x * 16 + y ≤ 127) (s : Bytes) :
    EscVal env (a :: b :: s) (x * 16 + y) := by
  refine ⟨?_, by omega⟩
  have ha0 : a ≠ 0 := ha.ne 0 (by decide)
  have hb0 : b ≠ 0 := hb.ne 0 (by decide)
  have ht : (a :: b :: s).takeWhile (· ≠ 0) = a :: b :: s.takeWhile (· ≠ 0) := by simp [ha0, hb0]
  rw [ht]
  unfold sscanf2x
  dsimp only
  rw [List.takeWhile_cons, if_neg (by simp [ha.notSpace])]
  simp only [List.length_nil, List.drop_zero, Nat.zero_add]
  rw [if_neg (ha.ne _ (by decide)), if_neg (ha.ne _ (by decide))]
  simp only [scanDigits, (hexVal?_iff a x).2 ha, (hexVal?_iff b y).2 hb, if_neg (show ¬ 2 < 2 by omega), Option.map_some]

theorem Encodes.scan {env : UEnv} (hcm : 127 ≤ env.charMax) {f e s} (h : Encodes f e s) {d : UInt8} (hd : isDelim f d = true) (r : Bytes) :
    Scan env f (e ++ d :: r) s d r := by
  induction h with
  | nil => exact .delim hd
  | lit hc _ ih => exact .lit (reserved_of_delim hc).1 (reserved_of_delim hc).2.1 ih
  | @esc a b x y c e s ha hb hc hp hle _ ih =>
    have hc' : c = UInt8.ofNat (x * 16 + y) := by
      apply UInt8.toNat_inj.1
      rw [hc, UInt8.toNat_ofNat', Nat.mod_eq_of_lt (by omega)]
    rw [hc']
    exact .esc (escVal_hex hcm ha hb hle _) ih

/-- the C string at a position of a buffer, ending inside it -/
def HasStr (b : Bytes) (pos : Nat) (s : Bytes) : Prop := ∃ a j, b = a ++ s ++ 0 :: j ∧ a.length = pos ∧ 0 ∉ s

theorem HasStr.append {b pos s} (h : HasStr b pos s) (x : Bytes) : HasStr (b ++ x) pos s := by
  obtain ⟨a, j, rfl, h1, h2⟩ := h
  exact ⟨a, j ++ x, by simp, h1, h2⟩

theorem HasStr.cstr {b pos s} (h : HasStr b pos s) : cstr? (b.drop pos) = some s := by
  obtain ⟨a, j, rfl, rfl, h2⟩ := h
  rw [List.append_assoc, List.drop_left, takeWhile_cstr (by simp)]
  congr 1
  rw [List.takeWhile_append_of_pos (by intro c hc; simp only [ne_eq, decide_eq_true_eq]; exact fun h => h2 (h ▸ hc))]
  simp

theorem HasStr.head {b pos s} (h : HasStr b pos s) : b[pos]? = some (s.headD 0) := by
  obtain ⟨a, j, rfl, rfl, h2⟩ := h
  rw [List.append_assoc, List.getElem?_append_right (Nat.le_refl _), Nat.sub_self]
  cases s <;> rfl

/-- one component read -/
theorem findDelim_enc {env : UEnv} (hcm : 127 ≤ env.charMax) {f e s} (h : Encodes f e s) {d : UInt8} (hd : isDelim f d = true) (r pre : Bytes)
    (info : ConnInfo) (h0 : d = 0 ∨ 0 ∈ r) :
    ∃ mid, findDelim env pre.length f ⟨pre ++ (e ++ d :: r), info⟩ = .ok (d, (pre ++ mid).length) ⟨pre ++ mid ++ r, info⟩ ∧
      HasStr (pre ++ mid) pre.length s := by
  have hdp : d ≠ ch '%' := fun h => by rw [h, isDelim_pct] at hd; cases hd
  have h0' : 0 ∈ e ++ d :: r := by
    rcases h0 with h | h
    · rw [h]; simp
    · simp [h]
  obtain ⟨mid, e1, _, hj, _⟩ := findDelim_spec (h.scan hcm hd r) pre info h0'
  obtain ⟨junk, hj⟩ := hj hdp
  rw [if_neg hdp] at e1
  exact ⟨mid, e1, pre, junk, by rw [hj]; simp, rfl, h.noNul⟩

/-- what follows the host and port: nothing, or a slash and the vhost -/
def VEnd (vh : Option Bytes) (delim : UInt8) (rest tail : Bytes) : Prop :=
  (vh = none ∧ delim = 0 ∧ rest = tail) ∨ (∃ x e, vh = some x ∧ Encodes true e x ∧ delim = ch '/' ∧ rest = e ++ 0 :: tail)

theorem PortText.strtol {t : Bytes} {n : Nat} (h : PortText t n) : strtol10 t = some ((n : Int), []) := by
  obtain ⟨hne, hd, hv, hle⟩ := PortText.def.1 h
  have dig : ∀ c ∈ t, isDigit c = true := fun c hc => by
    have := hd c hc
    unfold isDigit
    simp only [Bool.and_eq_true, decide_eq_true_eq, UInt8.le_iff_toNat_le]
    have k0 : (ch '0').toNat = 48 := by decide
    have k9 : (ch '9').toNat = 57 := by decide
    omega
  have htw : t.takeWhile isDigit = t := by
    have := List.takeWhile_append_of_pos (l₂ := []) dig
    simpa using this
  cases t with
  | nil => exact absurd rfl hne
  | cons c t =>
    have hc := hd c List.mem_cons_self
    have hex : IsHex c (c.toNat - 48) := by unfold IsHex; omega
    unfold strtol10
    dsimp only
    have hdw : (c :: t).dropWhile isSpace = c :: t := by simp [List.dropWhile_cons, hex.notSpace]
    rw [hdw]
    have hne1 : c ≠ ch '+' := hex.ne _ (by decide)
    have hne2 : c ≠ ch '-' := hex.ne _ (by decide)
    simp only [if_neg hne1, if_neg hne2]
    rw [htw, if_neg (by simp)]
    simp only [Bool.false_eq_true, if_false, List.drop_length, hv]
    congr 2
    omega

theorem PortText.encodes {t : Bytes} {n : Nat} (h : PortText t n) : Encodes true t t := by
  have hd := h.2.1
  clear h
  induction t with
  | nil => exact .nil
  | cons c t ih =>
    refine .lit ?_ (ih (fun x hx => hd x (List.mem_cons_of_mem _ hx)))
    have hc := hd c List.mem_cons_self
    intro hm
    have : ∀ x ∈ reserved true, x.toNat < 48 ∨ 57 < x.toNat := by decide
    have := this c hm
    omega

/-- the port as known so far -/
def PKnown (pre : Bytes) (port : Option Nat) (n : Option Nat) : Prop :=
  (port = none ∧ n = none) ∨ (∃ pos t m, port = some pos ∧ HasStr pre pos t ∧ PortText t m ∧ n = some m)

theorem parsePort_known {pre : Bytes} {port n} (h : PKnown pre port n) (rest : Bytes) (info : ConnInfo) :
    parsePort port ⟨pre ++ rest, info⟩ = .ok () ⟨pre ++ rest, { info with port := (n.map Int.ofNat).getD info.port }⟩ := by
  rcases h with ⟨rfl, rfl⟩ | ⟨pos, t, m, rfl, hs, hp, rfl⟩
  · rfl
  · unfold parsePort
    dsimp only
    rw [M.bind_def]
    unfold strAt
    dsimp only
    rw [(hs.append rest).cstr]
    dsimp only
    rw [hp.strtol]
    dsimp only
    have := hp.2.2.2
    rw [if_neg (by simp only [ne_eq, not_true_eq_false, false_or, not_or]; omega)]
    rfl

/-- the end: port and vhost -/
theorem parseEnd_known {env : UEnv} (hcm : 127 ≤ env.charMax) {pre : Bytes} {port n} (hp : PKnown pre port n) {vh delim rest tail} (hv : VEnd vh delim rest tail)
    (info : ConnInfo) (hi : info.vhost = .lit (chs "/")) :
    ∃ rest' vptr, parseEnd env port delim pre.length ⟨pre ++ rest, info⟩ =
        .ok () ⟨pre ++ rest', { info with port := (n.map Int.ofNat).getD info.port, vhost := vptr }⟩ ∧
      vptr.read (pre ++ rest') = some (vh.getD (chs "/")) := by
  unfold parseEnd
  rw [M.bind_def, parsePort_known hp]
  dsimp only
  rcases hv with ⟨rfl, rfl, rfl⟩ | ⟨x, e, rfl, he, rfl, rfl⟩
  · rw [if_neg (by decide), if_pos rfl]
    exact ⟨rest, info.vhost, rfl, by rw [hi]; rfl⟩
  · rw [if_pos rfl, M.bind_def]
    obtain ⟨mid, e1, hs⟩ := findDelim_enc hcm he (isDelim_zero true) tail pre { info with port := (n.map Int.ofNat).getD info.port } (.inl rfl)
    rw [e1]
    dsimp only
    rw [if_neg (by simp)]
    refine ⟨mid ++ tail, .ptr pre.length, by unfold setInfo; simp, ?_⟩
    show cstr? ((pre ++ (mid ++ tail)).drop pre.length) = _
    rw [← List.append_assoc]
    exact (hs.append tail).cstr

theorem VEnd.delim {vh delim rest tail} (h : VEnd vh delim rest tail) :
    isDelim true delim = true ∧ (delim = 0 ∨ 0 ∈ rest) ∧ delim ≠ ch ':' ∧ delim ≠ ch '@' ∧ delim ≠ ch '[' := by
  rcases h with ⟨_, rfl, _⟩ | ⟨x, e, _, _, rfl, rfl⟩
  · exact ⟨by decide, .inl rfl, by decide, by decide, by decide⟩
  · exact ⟨by decide, .inr (by simp), by decide, by decide, by decide⟩

/-- what follows the host: nothing or a colon and the port, then the end -/
def PEnd (n : Option Nat) (vh : Option Bytes) (delim : UInt8) (rest tail : Bytes) : Prop :=
  (n = none ∧ VEnd vh delim rest tail) ∨ (∃ m t d r, n = some m ∧ PortText t m ∧ delim = ch ':' ∧ rest = t ++ d :: r ∧ VEnd vh d r tail)

theorem PEnd.delim {n vh delim rest tail} (h : PEnd n vh delim rest tail) :
    isDelim true delim = true ∧ (delim = 0 ∨ 0 ∈ rest) ∧ delim ≠ ch '@' ∧ delim ≠ ch '[' := by
  rcases h with ⟨_, h⟩ | ⟨m, t, d, r, _, _, rfl, rfl, h⟩
  · exact ⟨h.delim.1, h.delim.2.1, h.delim.2.2.2.1, h.delim.2.2.2.2⟩
  · refine ⟨by decide, .inr ?_, by decide, by decide⟩
    rcases h.delim.2.1 with h | h
    · rw [h]; simp
    · simp [h]

theorem parseTail_known {env : UEnv} (hcm : 127 ≤ env.charMax) {pre : Bytes} {n vh delim rest tail} (hv : PEnd n vh delim rest tail)
    (info : ConnInfo) (hi : info.vhost = .lit (chs "/")) :
    ∃ rest' vptr, parseTail env none delim pre.length ⟨pre ++ rest, info⟩ =
        .ok () ⟨pre ++ rest', { info with port := (n.map Int.ofNat).getD info.port, vhost := vptr }⟩ ∧
      vptr.read (pre ++ rest') = some (vh.getD (chs "/")) := by
  unfold parseTail
  rcases hv with ⟨rfl, h⟩ | ⟨m, t, d, r, rfl, ht, rfl, rfl, h⟩
  · rw [if_neg h.delim.2.2.1]
    exact parseEnd_known hcm (.inl ⟨rfl, rfl⟩) h info hi
  · rw [if_pos rfl, M.bind_def]
    obtain ⟨mid, e1, hs⟩ := findDelim_enc hcm ht.encodes h.delim.1 r pre info h.delim.2.1
    rw [e1]
    dsimp only
    obtain ⟨rest', vptr, e2, hr⟩ := parseEnd_known hcm (port := some pre.length) (n := some m) (.inr ⟨_, t, m, rfl, hs, ht, rfl⟩) h info hi
    rw [e2]
    exact ⟨mid ++ rest', vptr, by simp, by rw [← List.append_assoc]; exact hr⟩

/-- the host as a pointer, with its default -/
def hostOut (s : Bytes) : Bytes := if s = [] then chs "localhost" else s

/-- the plain host, already cut out at `host` -/
theorem parseHost_name {env : UEnv} {pre : Bytes} {host start : Nat} {s : Bytes} (hs : HasStr pre host s) (port : Option Nat)
    (delim : UInt8) (hd : delim ≠ ch '[') (rest : Bytes) (info : ConnInfo) (hi : info.host = .lit (chs "localhost")) :
    ∃ hp : CStr, parseHost env host start port delim pre.length ⟨pre ++ rest, info⟩ =
      parseTail env port delim pre.length ⟨pre ++ rest, { info with host := hp }⟩ ∧ ∀ x, hp.read (pre ++ x) = some (hostOut s) := by
  unfold parseHost
  rw [if_neg hd, M.bind_def]
  have : rdAt host ⟨pre ++ rest, info⟩ = .ok (s.headD 0) ⟨pre ++ rest, info⟩ := by
    unfold rdAt; dsimp only; rw [(hs.append rest).head]
  rw [this]
  dsimp only
  cases s with
  | nil =>
    rw [if_neg (by simp)]
    refine ⟨info.host, rfl, fun x => by rw [hi]; rfl⟩
  | cons c s =>
    have hc : c ≠ 0 := by
      obtain ⟨_, _, _, _, h⟩ := hs
      simp only [List.mem_cons, not_or] at h; exact Ne.symm h.1
    rw [if_pos (by simpa using hc), M.bind_def]
    exact ⟨.ptr host, rfl, fun x => (hs.append x).cstr⟩

/-- the bracketed host: `[` was just found at an empty host -/
theorem parseHost_bracket {env : UEnv} (hcm : 127 ≤ env.charMax) {pre : Bytes} {host : Nat} (hs : HasStr pre host []) {e s : Bytes} (he : Encodes false e s)
    {n vh delim rest tail} (hv : PEnd n vh delim rest tail) (info : ConnInfo) :
    ∃ (pre' : Bytes) (p : Nat), (∃ m, pre' = pre ++ m) ∧ HasStr pre' p s ∧
      parseHost env host host none (ch '[') pre.length ⟨pre ++ (e ++ ch ']' :: delim :: rest), info⟩ =
        parseTail env none delim pre'.length ⟨pre' ++ rest, { info with host := .ptr p }⟩ := by
  have h0 : 0 ∈ delim :: rest := by
    rcases hv.delim.2.1 with h | h
    · rw [h]; simp
    · simp [h]
  obtain ⟨mid, e1, hs1⟩ := findDelim_enc hcm he (d := ch ']') (by decide) (delim :: rest) pre info (.inr h0)
  obtain ⟨mid2, e2, hs2⟩ := findDelim_enc hcm (.nil : Encodes true [] []) hv.delim.1 rest (pre ++ mid) { info with host := .ptr pre.length } hv.delim.2.1
  refine ⟨pre ++ mid ++ mid2, pre.length, ⟨mid ++ mid2, by simp⟩, hs1.append _, ?_⟩
  unfold parseHost
  rw [if_pos rfl, M.bind_def]
  have r1 : ∀ x i, rdAt host ⟨pre ++ x, i⟩ = .ok 0 ⟨pre ++ x, i⟩ := fun x i => by
    unfold rdAt; dsimp only; rw [(hs.append x).head]; rfl
  rw [r1]
  dsimp only
  rw [if_neg (by simp), M.bind_def, e1]
  dsimp only
  rw [if_neg (by simp), M.bind_def]
  unfold setInfo
  dsimp only
  rw [M.bind_def]
  rw [List.nil_append] at e2
  rw [e2]
  dsimp only
  rw [M.bind_def]
  have r2 : rdAt (pre ++ mid).length ⟨pre ++ mid ++ mid2 ++ rest, { info with host := .ptr pre.length }⟩ =
      .ok 0 ⟨pre ++ mid ++ mid2 ++ rest, { info with host := .ptr pre.length }⟩ := by
    unfold rdAt; dsimp only; rw [(hs2.append rest).head]; rfl
  rw [r2]
  dsimp only
  rw [if_neg (by simp)]

/-- what a parse of the part after the userinfo leaves -/
def HostOK (u : UrlParts) (pre0 : Bytes) (info : ConnInfo) (r : Res UrlSt Unit) : Prop :=
  ∃ x hp vp, r = .ok () ⟨pre0 ++ x, { info with host := hp, port := (u.port.map Int.ofNat).getD info.port, vhost := vp }⟩ ∧
    hp.read (pre0 ++ x) = u.expected.host ∧ vp.read (pre0 ++ x) = u.expected.vhost

/-- the host text -/
def HText (u : UrlParts) (h : Bytes) : Prop :=
  (∃ x e, u.host = .name x ∧ Encodes true e x ∧ h = e) ∨
  (∃ x e, u.host = .bracketed x ∧ Encodes false e x ∧ h = [ch '['] ++ e ++ [ch ']'])

/-- host, port and vhost after a userinfo -/
theorem host_after_user {env : UEnv} (hcm : 127 ≤ env.charMax) {u : UrlParts} {h : Bytes} (hh : HText u h) {delim rest tail}
    (hv : PEnd u.port u.vhost delim rest tail) (pre : Bytes) (info : ConnInfo) (hi : info.host = .lit (chs "localhost"))
    (hi2 : info.vhost = .lit (chs "/")) :
    HostOK u pre info ((do
      let (d, v) ← findDelim env pre.length true
      parseHost env pre.length pre.length none d v : M UrlSt Unit) ⟨pre ++ (h ++ delim :: rest), info⟩) := by
  rcases hh with ⟨x, e, hux, he, rfl⟩ | ⟨x, e, hux, he, rfl⟩
  · obtain ⟨mid, e1, hs⟩ := findDelim_enc hcm he hv.delim.1 rest pre info hv.delim.2.1
    rw [M.bind_def, e1]
    dsimp only
    obtain ⟨hp, e2, hr⟩ := parseHost_name (env := env) (start := pre.length) hs none delim hv.delim.2.2.2 rest info hi
    rw [e2]
    obtain ⟨rest', vp, e3, hr3⟩ := parseTail_known hcm (pre := pre ++ mid) hv { info with host := hp } hi2
    rw [e3]
    refine ⟨mid ++ rest', hp, vp, by simp, ?_, ?_⟩
    · rw [← List.append_assoc, hr]; unfold UrlParts.expected hostOut; rw [hux]
    · rw [← List.append_assoc]; exact hr3
  · have h0 : 0 ∈ e ++ ch ']' :: delim :: rest := by
      rcases hv.delim.2.1 with h | h
      · rw [h]; simp
      · simp [h]
    obtain ⟨mid, e1, hs⟩ := findDelim_enc hcm (.nil : Encodes true [] []) (d := ch '[') (by decide) (e ++ ch ']' :: delim :: rest) pre info (.inr h0)
    have hb : pre ++ ([ch '['] ++ e ++ [ch ']'] ++ delim :: rest) = pre ++ ([] ++ ch '[' :: (e ++ ch ']' :: delim :: rest)) := by simp
    rw [hb, M.bind_def, e1]
    dsimp only
    obtain ⟨pre', p, ⟨m, hm⟩, hs', e2⟩ := parseHost_bracket hcm hs he hv info
    rw [e2]
    obtain ⟨rest', vp, e3, hr3⟩ := parseTail_known hcm (pre := pre') hv { info with host := .ptr p } hi2
    rw [e3]
    refine ⟨mid ++ (m ++ rest'), .ptr p, vp, by rw [hm]; simp, ?_, ?_⟩
    · have : pre ++ (mid ++ (m ++ rest')) = pre' ++ rest' := by rw [hm]; simp
      rw [this]
      show cstr? ((pre' ++ rest').drop p) = _
      rw [(hs'.append rest').cstr]
      unfold UrlParts.expected; rw [hux]
    · have : pre ++ (mid ++ (m ++ rest')) = pre' ++ rest' := by rw [hm]; simp
      rw [this]; exact hr3

/-- The whole authority. -/
theorem parseAuthority_known {env : UEnv} (hcm : 127 ≤ env.charMax) {u : UrlParts} {ui h : Bytes}
    (hui : (u.user = none ∧ u.password = none ∧ ui = []) ∨
             (∃ x e, u.user = some x ∧ Encodes true e x ∧ u.password = none ∧ ui = e ++ [ch '@']) ∨
             (∃ x e y f, u.user = some x ∧ Encodes true e x ∧ u.password = some y ∧ Encodes true f y ∧ ui = e ++ [ch ':'] ++ f ++ [ch '@']))
    (hh : HText u h) {delim rest tail} (hv : PEnd u.port u.vhost delim rest tail) (pre : Bytes) (info : ConnInfo)
    (hi0 : info.user = .lit (chs "guest")) (hi1 : info.password = .lit (chs "guest"))
    (hi : info.host = .lit (chs "localhost")) (hi2 : info.vhost = .lit (chs "/")) (hssl : info.ssl = u.ssl)
    (hport : info.port = if u.ssl then 5671 else 5672) :
    ∃ s, parseAuthority env pre.length ⟨pre ++ (ui ++ h ++ delim :: rest), info⟩ = .ok () s ∧ s.view = u.expected := by
  have portEq : ∀ (i : ConnInfo), i.port = info.port → (u.port.map Int.ofNat).getD i.port = u.expected.port := by
    intro i hip
    rw [hip, hport]
    unfold UrlParts.expected
    cases u.port with
    | none => cases u.ssl <;> rfl
    | some n => rfl
  have h0h : 0 ∈ h ++ delim :: rest := by
    rcases hv.delim.2.1 with h' | h'
    · rw [h']; simp
    · simp [h']
  unfold parseAuthority
  rcases hui with ⟨hu, hpw, rfl⟩ | ⟨x, e, hu, he, hpw, rfl⟩ | ⟨x, e, y, f, hu, he, hpw, hf, rfl⟩
  · -- no userinfo
    rw [List.nil_append]
    have fin : ∀ (pre' : Bytes) (x : Bytes) (hp vp : CStr), hp.read (pre' ++ x) = u.expected.host → vp.read (pre' ++ x) = u.expected.vhost →
        UrlSt.view ⟨pre' ++ x, { info with host := hp, port := (u.port.map Int.ofNat).getD info.port, vhost := vp }⟩ = u.expected := by
      intro pre' x hp vp h1 h2
      unfold UrlSt.view
      dsimp only
      rw [h1, h2, hi0, hi1, portEq info rfl, hssl]
      unfold UrlParts.expected
      rw [hu, hpw]
      rfl
    rcases hv with ⟨hn, hve⟩ | ⟨m, t, d, r, hn, ht, hdel, hrest, hve⟩
    · -- no port: one delimiter
      have hv : PEnd u.port u.vhost delim rest tail := .inl ⟨hn, hve⟩
      obtain ⟨x, hp, vp, e1, h1, h2⟩ := host_after_user hcm hh hv pre info hi hi2
      rw [M.bind_def] at e1 ⊢
      rcases hh with ⟨xx, e, hux, he, rfl⟩ | ⟨xx, e, hux, he, rfl⟩
      · obtain ⟨mid, e2, hs⟩ := findDelim_enc hcm he hv.delim.1 rest pre info hv.delim.2.1
        rw [e2] at e1 ⊢
        dsimp only at e1 ⊢
        rw [if_neg hve.delim.2.2.1]
        unfold parseUser
        rw [if_neg hve.delim.2.2.2.1]
        exact ⟨_, e1, fin pre x hp vp h1 h2⟩
      · have hb : pre ++ ([ch '['] ++ e ++ [ch ']'] ++ delim :: rest) = pre ++ ([] ++ ch '[' :: (e ++ ch ']' :: delim :: rest)) := by simp
        have h0 : 0 ∈ e ++ ch ']' :: delim :: rest := by
          rcases hv.delim.2.1 with h | h
          · rw [h]; simp
          · simp [h]
        obtain ⟨mid, e2, hs⟩ := findDelim_enc hcm (.nil : Encodes true [] []) (d := ch '[') (by decide) (e ++ ch ']' :: delim :: rest) pre info (.inr h0)
        rw [hb] at e1 ⊢
        rw [e2] at e1 ⊢
        dsimp only at e1 ⊢
        rw [if_neg (by decide)]
        unfold parseUser
        rw [if_neg (by decide)]
        exact ⟨_, e1, fin pre x hp vp h1 h2⟩
    · -- a port: for a plain host the colon is met first
      subst hdel; subst hrest
      have hv : PEnd u.port u.vhost (ch ':') (t ++ d :: r) tail := .inr ⟨m, t, d, r, hn, ht, rfl, rfl, hve⟩
      rcases hh with ⟨xx, e, hux, he, rfl⟩ | ⟨xx, e, hux, he, rfl⟩
      · rw [M.bind_def]
        obtain ⟨mid, e2, hs⟩ := findDelim_enc hcm he (d := ch ':') (by decide) (t ++ d :: r) pre info hv.delim.2.1
        rw [e2]
        dsimp only
        rw [if_pos rfl, M.bind_def]
        obtain ⟨mid2, e3, hs2⟩ := findDelim_enc hcm ht.encodes hve.delim.1 r (pre ++ mid) info hve.delim.2.1
        rw [e3]
        dsimp only
        unfold parseUser
        rw [if_neg hve.delim.2.2.2.1]
        obtain ⟨hp, e4, hr⟩ := parseHost_name (env := env) (start := (pre ++ mid).length) (hs.append mid2) (some (pre ++ mid).length) d hve.delim.2.2.2.2 r info hi
        rw [e4]
        unfold parseTail
        rw [if_neg hve.delim.2.2.1]
        obtain ⟨rest', vp, e5, hr5⟩ := parseEnd_known hcm (pre := pre ++ mid ++ mid2) (port := some (pre ++ mid).length) (n := some m)
          (.inr ⟨_, t, m, rfl, hs2, ht, rfl⟩) hve { info with host := hp } hi2
        rw [e5]
        refine ⟨_, rfl, ?_⟩
        have := fin (pre ++ mid ++ mid2) rest' hp vp (by rw [hr]; unfold UrlParts.expected hostOut; rw [hux]) hr5
        rw [hn] at this
        exact this
      · obtain ⟨x, hp, vp, e1, h1, h2⟩ := host_after_user hcm (.inr ⟨xx, e, hux, he, rfl⟩) hv pre info hi hi2
        rw [M.bind_def] at e1 ⊢
        have hb : pre ++ ([ch '['] ++ e ++ [ch ']'] ++ ch ':' :: (t ++ d :: r)) = pre ++ ([] ++ ch '[' :: (e ++ ch ']' :: ch ':' :: (t ++ d :: r))) := by simp
        have h0 : 0 ∈ e ++ ch ']' :: ch ':' :: (t ++ d :: r) := by
          rcases hve.delim.2.1 with h | h
          · rw [h]; simp
          · simp [h]
        obtain ⟨mid, e2, hs⟩ := findDelim_enc hcm (.nil : Encodes true [] []) (d := ch '[') (by decide) (e ++ ch ']' :: ch ':' :: (t ++ d :: r)) pre info (.inr h0)
        rw [hb] at e1 ⊢
        rw [e2] at e1 ⊢
        dsimp only at e1 ⊢
        rw [if_neg (by decide)]
        unfold parseUser
        rw [if_neg (by decide)]
        exact ⟨_, e1, fin pre x hp vp h1 h2⟩
  · -- user only
    have hb : pre ++ (e ++ [ch '@'] ++ h ++ delim :: rest) = pre ++ (e ++ ch '@' :: (h ++ delim :: rest)) := by simp
    rw [hb, M.bind_def]
    obtain ⟨mid, e2, hs⟩ := findDelim_enc hcm he (d := ch '@') (by decide) (h ++ delim :: rest) pre info (.inr h0h)
    rw [e2]
    dsimp only
    rw [if_neg (by decide)]
    unfold parseUser
    rw [if_pos rfl, M.bind_def]
    unfold setInfo
    dsimp only [Option.map_none, Option.getD_none]
    obtain ⟨x', hp, vp, e1, h1, h2⟩ := host_after_user hcm hh hv (pre ++ mid) { info with user := .ptr pre.length } hi hi2
    refine ⟨_, e1, ?_⟩
    unfold UrlSt.view
    dsimp only
    rw [h1, h2, portEq { info with user := .ptr pre.length } rfl, hssl, hi1]
    show UrlInfo.mk (cstr? _) _ _ _ _ _ = _
    rw [(hs.append x').cstr]
    unfold UrlParts.expected
    rw [hu, hpw]
    rfl
  · -- user and password
    have hb : pre ++ (e ++ [ch ':'] ++ f ++ [ch '@'] ++ h ++ delim :: rest) = pre ++ (e ++ ch ':' :: (f ++ ch '@' :: (h ++ delim :: rest))) := by simp
    rw [hb, M.bind_def]
    obtain ⟨mid, e2, hs⟩ := findDelim_enc hcm he (d := ch ':') (by decide) (f ++ ch '@' :: (h ++ delim :: rest)) pre info
      (.inr (List.mem_append_right _ (List.mem_cons_of_mem _ h0h)))
    rw [e2]
    dsimp only
    rw [if_pos rfl, M.bind_def]
    obtain ⟨mid2, e3, hs2⟩ := findDelim_enc hcm hf (d := ch '@') (by decide) (h ++ delim :: rest) (pre ++ mid) info (.inr h0h)
    rw [e3]
    dsimp only
    unfold parseUser
    rw [if_pos rfl, M.bind_def]
    unfold setInfo
    dsimp only [Option.map_some, Option.getD_some]
    obtain ⟨x', hp, vp, e1, h1, h2⟩ := host_after_user hcm hh hv (pre ++ mid ++ mid2)
      { info with user := .ptr pre.length, password := .ptr (pre ++ mid).length } hi hi2
    refine ⟨_, e1, ?_⟩
    unfold UrlSt.view
    dsimp only
    rw [h1, h2, portEq { info with user := .ptr pre.length, password := .ptr (pre ++ mid).length } rfl, hssl]
    show UrlInfo.mk (cstr? _) (cstr? _) _ _ _ _ = _
    rw [((hs.append mid2).append x').cstr, (hs2.append x').cstr]
    unfold UrlParts.expected
    rw [hu, hpw]
    rfl

end Rmq.UrlM
