import Verif.Proofs.UrlParts
import Verif.Proofs.UrlSound
/-!
# URL parsing: C42, C43, C44
-/
namespace Rmq

open UrlM

/-! ## C42 -/

/-- C42: every way of writing a URL with the components `u` (any percent-encoding of user, password, host and vhost, any subset of the
optional parts, bracketed or plain host) parses to exactly these components, with the documented defaults for what was left out.  `tail`
is whatever memory follows the string. -/
theorem C42_components (env : UEnv) (hcm : 127 ≤ env.charMax) (u : UrlParts) (text : Bytes) (h : UrlText u text) (tail : Bytes) :
    ∃ s, parseUrl env (text ++ 0 :: tail) = .ok () s ∧ s.view = u.expected := by
  obtain ⟨hui, hh, hp, hv⟩ := h
  rename_i ui h p v
  -- what follows the host, as delimiter and rest
  obtain ⟨delim, rest, hpe, heq⟩ : ∃ delim rest, PEnd u.port u.vhost delim rest tail ∧ p ++ v ++ 0 :: tail = delim :: rest := by
    obtain ⟨d, r, hve, he⟩ : ∃ d r, VEnd u.vhost d r tail ∧ v ++ 0 :: tail = d :: r := by
      rcases hv with ⟨h1, rfl⟩ | ⟨x, e, h1, h2, rfl⟩
      · exact ⟨0, tail, .inl ⟨h1, rfl, rfl⟩, rfl⟩
      · exact ⟨ch '/', e ++ 0 :: tail, .inr ⟨x, e, h1, h2, rfl, rfl⟩, by simp⟩
    rcases hp with ⟨h1, rfl⟩ | ⟨n, t, h1, h2, rfl⟩
    · exact ⟨d, r, .inl ⟨h1, hve⟩, by rw [List.nil_append]; exact he⟩
    · exact ⟨ch ':', t ++ d :: r, .inr ⟨n, t, d, r, h1, h2, rfl, rfl, hve⟩, by rw [List.append_assoc, he]; simp⟩
  have hbuf : ∀ sch : Bytes, sch ++ ui ++ h ++ p ++ v ++ 0 :: tail = sch ++ (ui ++ h ++ delim :: rest) := by
    intro sch
    rw [← heq]; simp
  have hcs : ∀ sch x : Bytes, 0 ∉ sch → 0 ∈ x → cstr? (sch ++ x) = some (sch ++ x.takeWhile (· ≠ 0)) := by
    intro sch x h1 h2
    rw [takeWhile_cstr (by simp [h2]), List.takeWhile_append_of_pos]
    intro c hc; simp only [ne_eq, decide_eq_true_eq]; exact fun h => h1 (h ▸ hc)
  have h0 : 0 ∈ ui ++ h ++ delim :: rest := by
    rcases hpe.delim.2.1 with h' | h'
    · rw [h']; simp
    · simp [h']
  unfold parseUrl parseUrlM
  rw [hbuf, M.bind_def]
  unfold strAt
  dsimp only
  rw [List.drop_zero]
  cases hs : u.ssl with
  | false =>
    simp only [Bool.false_eq_true, if_false]
    rw [hcs _ _ (by decide) h0]
    dsimp only
    rw [if_pos (by rw [List.isPrefixOf_iff_prefix]; exact List.prefix_append _ _)]
    exact parseAuthority_known hcm hui hh hpe (chs "amqp://") defaultInfo rfl rfl rfl rfl hs.symm (by rw [hs]; rfl)
  | true =>
    simp only [if_true]
    rw [hcs _ _ (by decide) h0]
    dsimp only
    rw [if_neg (by
      rw [List.isPrefixOf_iff_prefix]
      intro hpre
      have := hpre.getElem (i := 4) (by decide)
      revert this
      rw [List.getElem_append_left (by decide)]
      decide), if_pos (by rw [List.isPrefixOf_iff_prefix]; exact List.prefix_append _ _), M.bind_def]
    unfold setInfo
    dsimp only
    exact parseAuthority_known hcm hui hh hpe (chs "amqps://") { defaultInfo with port := 5671, ssl := true } rfl rfl rfl rfl hs.symm (by rw [hs]; rfl)

/-- Non-vacuity: `amqps://us%65r:p%3aw@h:05671/%2f`. -/
def sampleUrl : UrlParts := ⟨true, some (chs "user"), some (chs "p:w"), .name (chs "h"), some 5671, some (chs "/")⟩

theorem sampleUrl_text : UrlText sampleUrl (chs "amqps://us%65r:p%3aw@h:05671/%2f") := by
  have hexd : ∀ n : Nat, n < 10 → IsHex (UInt8.ofNat (48 + n)) n := fun n hn => by
    unfold IsHex
    rw [UInt8.toNat_ofNat', Nat.mod_eq_of_lt (by omega)]; omega
  have enc1 : Encodes true (chs "us%65r") (chs "user") :=
    .lit (by decide) (.lit (by decide) (.esc (x := 6) (y := 5) (hexd 6 (by omega)) (hexd 5 (by omega)) (by decide) (by decide) (by decide)
      (.lit (by decide) .nil)))
  have enc2 : Encodes true (chs "p%3aw") (chs "p:w") :=
    .lit (by decide) (.esc (x := 3) (y := 10) (hexd 3 (by omega)) ⟨by decide, by decide⟩ (by decide) (by decide) (by decide) (.lit (by decide) .nil))
  have enc3 : Encodes true (chs "h") (chs "h") := .lit (by decide) .nil
  have enc4 : Encodes true (chs "%2f") (chs "/") :=
    .esc (x := 2) (y := 15) (hexd 2 (by omega)) ⟨by decide, by decide⟩ (by decide) (by decide) (by decide) .nil
  exact UrlText.mk (u := sampleUrl) (ui := chs "us%65r:p%3aw@") (h := chs "h") (p := chs ":05671") (v := chs "/%2f")
    (.inr (.inr ⟨_, _, _, _, rfl, enc1, rfl, enc2, rfl⟩)) (.inl ⟨_, _, rfl, enc3, rfl⟩)
    (.inr ⟨5671, chs "05671", rfl, ⟨by decide, by decide, by decide, by decide⟩, rfl⟩) (.inr ⟨_, _, rfl, enc4, rfl⟩)

example : ((parseUrl ⟨127, true⟩ (chs "amqps://us%65r:p%3aw@h:05671/%2f" ++ [0, 0xAA])).state?.map UrlSt.view) =
    some ⟨some (chs "user"), some (chs "p:w"), some (chs "h"), some (chs "/"), 5671, true⟩ := by decide +kernel

example : ((parseUrl ⟨127, false⟩ (chs "amqp://[::1]" ++ [0])).state?.map UrlSt.view) =
    some ⟨some (chs "guest"), some (chs "guest"), some (chs "::1"), some (chs "/"), 5672, false⟩ := by decide +kernel

/-- More is accepted than the property asks: in `host:junk:port` the part between the two colons is silently dropped. -/
theorem C42_junk_before_port :
    ((parseUrl ⟨127, false⟩ (chs "amqp://h:junk:1234" ++ [0])).state?.map UrlSt.view) =
      some ⟨some (chs "guest"), some (chs "guest"), some (chs "h"), some (chs "/"), 1234, false⟩ := by decide +kernel

/-! ## C43 -/

/-- C43: on any NUL-terminated string (followed by any memory `tail`) the parser terminates without touching anything outside the string,
returns OK or BAD_URL, leaves the terminating NUL and everything after it in place, and all pointers it returns point into the string. -/
theorem C43_safe (env : UEnv) (hcm : env.charMax ≤ 255) (body tail : Bytes) (h0 : 0 ∉ body) :
    ∃ s body', (parseUrl env (body ++ 0 :: tail) = .ok () s ∨ parseUrl env (body ++ 0 :: tail) = .err St.BAD_URL s) ∧
      s.buf = body' ++ 0 :: tail ∧ body'.length = body.length ∧
      ∀ c ∈ [s.info.user, s.info.password, s.info.host, s.info.vhost], ∀ p, c = .ptr p → p ≤ body.length := by
  have hg := parseUrl_safe env hcm body tail h0
  have fin : ∀ s, UInv body.length tail s → ∃ body', s.buf = body' ++ 0 :: tail ∧ body'.length = body.length ∧
      ∀ c ∈ [s.info.user, s.info.password, s.info.host, s.info.vhost], ∀ p, c = .ptr p → p ≤ body.length := by
    intro s inv
    obtain ⟨X, h1, h2⟩ := inv.buf
    refine ⟨X, h1, h2, fun c hc p hp => ?_⟩
    obtain ⟨i1, i2, i3, i4⟩ := inv.ptrs
    simp only [List.mem_cons, List.not_mem_nil, or_false] at hc
    rcases hc with h | h | h | h
    · rw [← h, hp] at i1; exact i1
    · rw [← h, hp] at i2; exact i2
    · rw [← h, hp] at i3; exact i3
    · rw [← h, hp] at i4; exact i4
  cases hr : parseUrl env (body ++ 0 :: tail) with
  | ok a s => rw [hr] at hg; obtain ⟨b, h⟩ := fin s hg.1; exact ⟨s, b, .inl rfl, h⟩
  | err e s => rw [hr] at hg; obtain ⟨b, h⟩ := fin s hg.2; exact ⟨s, b, .inr (by rw [hg.1]), h⟩
  | ub => rw [hr] at hg; exact hg.elim
  | fuel => rw [hr] at hg; exact hg.elim

/-! ## C44 -/

/-- C44: a URL containing a percent sign that does not begin an accepted escape is rejected with BAD_URL.  Accepted are two hexadecimal
digits with a value up to CHAR_MAX, and — missing from the property as stated — the odd forms listed in `AcceptedEscape`. -/
theorem C44_malformed_rejected_partial (env : UEnv) (hcm : env.charMax ≤ 255) (body tail : Bytes) (h0 : 0 ∉ body) (pre post : Bytes)
    (hb : body = pre ++ ch '%' :: post) (hbad : ¬ AcceptedEscape env (post ++ 0 :: tail)) :
    ∃ s, parseUrl env (body ++ 0 :: tail) = .err St.BAD_URL s := by
  have hg := parseUrl_safe env hcm body tail h0
  cases hr : parseUrl env (body ++ 0 :: tail) with
  | ok a s =>
    rw [hr] at hg
    have h1 : 0 ∉ pre := fun h => h0 (by rw [hb]; exact List.mem_append_left _ h)
    exact absurd (hg.2 pre (post ++ 0 :: tail) (by rw [hb]; simp) h1) hbad
  | err e s => rw [hr] at hg; exact ⟨s, by rw [hg.1]⟩
  | ub => rw [hr] at hg; exact hg.elim
  | fuel => rw [hr] at hg; exact hg.elim

/-- C44 where `char` is signed: an escape of a byte above 127 is rejected. -/
theorem C44_non_ascii_rejected (env : UEnv) (hcm : env.charMax = 127) (body tail : Bytes) (h0 : 0 ∉ body) (pre post : Bytes) (a b : UInt8)
    (x y : Nat) (ha : IsHex a x) (hb : IsHex b y) (hbig : 127 < x * 16 + y) (he : body = pre ++ ch '%' :: a :: b :: post) :
    ∃ s, parseUrl env (body ++ 0 :: tail) = .err St.BAD_URL s := by
  refine C44_malformed_rejected_partial env (by omega) body tail h0 pre (a :: b :: post) he ?_
  have inj : ∀ {c : UInt8} {v w : Nat}, IsHex c v → IsHex c w → v = w := fun h1 h2 => by unfold IsHex at h1 h2; omega
  rintro (⟨a', b', r, x', y', e, hx, hy, hle⟩ | ⟨a', b', r, x', e, hs, hx, _⟩ | ⟨b', r, x', e, hx⟩ | ⟨r, e⟩ | ⟨_, b', r, e, hx⟩)
  all_goals (injection e with e1 e; injection e with e2 e; subst e1; try subst e2)
  · rw [inj ha hx, inj hb hy] at hbig; omega
  · rw [ha.notSpace] at hs; cases hs
  · exact absurd rfl (ha.ne _ (by decide))
  · exact absurd rfl (ha.ne _ (by decide))
  · rcases hx with rfl | rfl
    · unfold IsHex at hb; have : (ch 'x').toNat = 120 := by decide
      omega
    · unfold IsHex at hb; have : (ch 'X').toNat = 88 := by decide
      omega

/-- Non-vacuity of the two theorems: `amqp://h/%4` and `amqp://h/%g0` have no accepted escape after the percent sign, `%c3` is not ASCII. -/
example : ((parseUrl ⟨127, true⟩ (chs "amqp://h/%4" ++ [0])).errCode?, (parseUrl ⟨127, true⟩ (chs "amqp://h/%g0" ++ [0])).errCode?,
    (parseUrl ⟨127, true⟩ (chs "amqp://h/%c3" ++ [0])).errCode?) = (some St.BAD_URL, some St.BAD_URL, some St.BAD_URL) := by decide +kernel

example : ¬ AcceptedEscape ⟨127, true⟩ (chs "g0" ++ [0]) := by
  have hk : ∀ v, ¬ IsHex (ch 'g') v := fun v h => by
    unfold IsHex at h; have : (ch 'g').toNat = 103 := by decide
    omega
  rintro (⟨a', b', r, x', y', e, hx, hy, hle⟩ | ⟨a', b', r, x', e, hs, hx, _⟩ | ⟨b', r, x', e, hx⟩ | ⟨r, e⟩ | ⟨_, b', r, e, hx⟩)
  · injection e with e1 e; subst e1; exact hk _ hx
  · injection e with e1 e; subst e1; revert hs; decide
  · injection e with e1 e; exact absurd e1 (by decide)
  · injection e with e1 e; exact absurd e1 (by decide)
  · injection e with e1 e; exact absurd e1 (by decide)

/-- C44 is false as stated: these malformed escapes are accepted. -/
theorem C44_odd_escapes_accepted :
    ((parseUrl ⟨127, false⟩ (chs "amqp://h/% 4" ++ [0])).state?.map fun s => s.view.vhost) = some (some [4]) ∧
    ((parseUrl ⟨127, false⟩ (chs "amqp://h/%+4" ++ [0])).state?.map fun s => s.view.vhost) = some (some [4]) ∧
    ((parseUrl ⟨127, false⟩ (chs "amqp://h/%-0" ++ [0])).val?) = some () := by decide +kernel

/-! ## C76 -/

/-- C76: a string the parser accepts is a URL, and the result is what is written in it.  `LooseText` is what is accepted in place of `UrlText`:
the same grammar, with the deviations listed there (odd escapes and escapes of NUL, blanks and a sign before the port, an ignored part
between host and port). -/
theorem C76_accepted_partial (env : UEnv) (hcm : env.charMax ≤ 255) (body tail : Bytes) (s : UrlSt) (h0 : 0 ∉ body)
    (h : parseUrl env (body ++ 0 :: tail) = .ok () s) : ∃ u, LooseText env u body ∧ s.view = u.expected :=
  parseUrl_sound hcm h0 h

/-- Non-vacuity: a URL with every component is accepted, so the theorem speaks about it. -/
example : (parseUrl ⟨127, true⟩ (chs "amqps://us%65r:p%3aw@h:05671/%2f" ++ 0 :: [0xAA])).val? = some () ∧
    0 ∉ chs "amqps://us%65r:p%3aw@h:05671/%2f" := by decide +kernel

/-- Non-URLs are rejected: a wrong scheme, no scheme, a port out of range, an empty port, a port followed by letters, a second path segment,
a query, an unclosed bracket, text after a bracket. -/
example : (["http://h", "h:5672", "AMQP://h", "amqp://h:65536", "amqp://h:", "amqp://h:1x", "amqp://h/a/b", "amqp://h/a?b", "amqp://[::1",
    "amqp://[::1]x"].map fun u => (parseUrl ⟨127, true⟩ (chs u ++ [0])).errCode?) = List.replicate 10 (some St.BAD_URL) := by decide +kernel

/-- C76 is false as stated: these are accepted, with these ports and hosts, although they are not URLs. -/
theorem C76_odd_urls_accepted :
    ((parseUrl ⟨127, false⟩ (chs "amqp://h: +5" ++ [0])).state?.map fun s => s.view.port) = some 5 ∧
    ((parseUrl ⟨127, false⟩ (chs "amqp://h:-0" ++ [0])).state?.map fun s => s.view.port) = some 0 ∧
    ((parseUrl ⟨127, false⟩ (chs "amqp://[h]%00x:1" ++ [0])).state?.map fun s => (s.view.host, s.view.port)) = some (some (chs "h"), 1) ∧
    ((parseUrl ⟨127, false⟩ (chs "amqp://h%00evil/v" ++ [0])).state?.map fun s => (s.view.host, s.view.vhost)) =
      some (some (chs "h"), some (chs "v")) := by decide +kernel

end Rmq
