import Verif.Lemmas.EnRelAgo
import Verif.Lemmas.EnRelIn
import Verif.Lemmas.EnRelLater
import Verif.Lemmas.EnRelWords
import Verif.Props.English
/-! # C44: English relative dates, from the call of `Parse` to its result -/
set_option autoImplicit false
namespace Verif.Props
open Verif.Go Verif.Model Verif.Data Verif.Lemmas Verif.Spec

/-- The whole call on a text that is translated to a relative date. -/
theorem call_moment {E : Env} (hE : Sound E) {s : ParserSt} {c : PCfg} (hc : EnglishFirst s c) {str : List Char} (f : RelForm) (n : List Char)
    (u : RelUnit) (hn : IsNumeral n) (hr : number n ≤ 2562047)
    (hp : Passed E.uni E.table (enData.lang E.uni) [['t']] str (RelForm.phrase f n u).text)
    (hnz : ((RelForm.phrase f n u).moment (enCfg c E.now) (zonedBase c E.now)).isZero = false) :
    (E.parse s (some c) str []).2 = .ok {
      locale := ['e', 'n'], period := u.period c.timeAsPeriod
      time := (RelForm.phrase f n u).moment (enCfg c E.now) (zonedBase c E.now) } := by
  have h0 : 0 ≤ number n := number_nonneg hn
  have hrel := C16_relative (popTzOffset E.table) E.big (enCfg c E.now) E.now none (RelForm.phrase f n u) (phrase_ok f hn u) (phrase_tail f n u)
    (phrase_whole f n u) (phrase_range f h0 hr u) hp.zone
  rw [nowIn_base c E.now (base_notZero hE.toSurroundings c), phrase_period] at hrel
  refine call_relative hE hc hp.toReached _ hrel ?_
  unfold DateRes.isZero
  simp only [Bool.or_eq_false_iff]
  refine ⟨?_, hnz⟩
  cases u <;> cases (enCfg c E.now).timeAsPeriod <;> rfl

theorem call_phrase {E : Env} (hE : Sound E) {s : ParserSt} {c : PCfg} (hc : EnglishFirst s c) {str : List Char} (f : RelForm) (n : List Char)
    (u : RelUnit) (hn : IsNumeral n) (hr : number n ≤ 2562047)
    (hp : Passed E.uni E.table (enData.lang E.uni) [['t']] str (RelForm.phrase f n u).text)
    (hclock : u.isClock = true → FirmClock (zonedBase c E.now))
    (hnz : (u.shift c.preserveEndOfMonth (f.sign * number n) (zonedBase c E.now)).isZero = false) :
    (E.parse s (some c) str []).2 = .ok {
      locale := ['e', 'n'], period := u.period c.timeAsPeriod
      time := u.shift c.preserveEndOfMonth (f.sign * number n) (zonedBase c E.now) } := by
  have e := phrase_moment f n u (enCfg c E.now) (zonedBase c E.now) hclock
  rw [show (enCfg c E.now).preserveEndOfMonth = c.preserveEndOfMonth from rfl] at e
  rw [← e] at hnz ⊢
  exact call_moment hE hc f n u hn hr hp hnz

theorem unit_words_plain : ((unitNames ++ unitAbbreviations).all fun x => x.1.all fun c => !c.isDigit && decide (c.toNat < 128)) = true := by decide +kernel

theorem rel_write_map (f : RelForm) (g : Char → Char) (hg : ∀ c : Char, c = ' ' ∨ (c.isLower = true) → g c = c) (n w : List Char) :
    (f.write n w).map g = f.write (n.map g) (w.map g) := by
  have h1 : " ago".toList.map g = " ago".toList := by
    simp [hg 'a' (by decide), hg 'g' (by decide), hg 'o' (by decide), hg ' ' (by decide)]
  have h2 : " later".toList.map g = " later".toList := by
    simp [hg 'l' (by decide), hg 'a' (by decide), hg 't' (by decide), hg 'e' (by decide), hg 'r' (by decide), hg ' ' (by decide)]
  have h3 : "in ".toList.map g = "in ".toList := by
    simp [hg 'i' (by decide), hg 'n' (by decide), hg ' ' (by decide)]
  cases f <;> simp only [RelForm.write, List.map_append, List.map_cons, h1, h2, h3, hg ' ' (by decide)]

theorem phrase_map (f : RelForm) (ds n : List Char) (u : RelUnit) :
    (RelForm.phrase f n u).text.map (sub ds) = (RelForm.phrase f (n.map (sub ds)) u).text := by
  have hu : u.name.map (sub ds) = u.name := by
    refine map_sub_word ?_
    cases u <;> decide
  have ha : "ago".toList.map (sub ds) = "ago".toList := map_sub_word (by decide)
  have hi : "in".toList.map (sub ds) = "in".toList := map_sub_word (by decide)
  have hs : sub ds ' ' = ' ' := sub_other (by decide)
  cases f <;> simp only [RelForm.phrase, Phrase.text, Item.text, Item.amount, List.map_append, List.map_cons, List.map_nil, List.flatMap_nil,
    hu, ha, hi, hs]

theorem amount_sub {n : List Char} (h : IsNumeral n) (hl : n.length ≤ 3) : ∃ a ds : List Char,
    (a = "1".toList ∨ a = "12".toList ∨ a = "123".toList) ∧ (∀ c ∈ ds, c.isDigit = true) ∧ a.map (sub ds) = n := by
  have hne : n.length ≠ 0 := fun e => h.1 (List.length_eq_zero_iff.mp e)
  have hd := h.2
  match n, hne, hl with
  | [x], _, _ =>
    refine ⟨"1".toList, ['0', x], Or.inl rfl, ?_, rfl⟩
    intro c hc
    simp only [List.mem_cons, List.not_mem_nil, or_false] at hc hd
    rcases hc with rfl | rfl
    · decide
    · exact hd _ rfl
  | [x, y], _, _ =>
    refine ⟨"12".toList, ['0', x, y], Or.inr (Or.inl rfl), ?_, rfl⟩
    intro c hc
    simp only [List.mem_cons, List.not_mem_nil, or_false] at hc hd
    rcases hc with rfl | h
    · decide
    · exact hd _ h
  | [x, y, z], _, _ =>
    refine ⟨"123".toList, ['0', x, y, z], Or.inr (Or.inr rfl), ?_, rfl⟩
    intro c hc
    simp only [List.mem_cons, List.not_mem_nil, or_false] at hc hd
    rcases hc with rfl | h
    · decide
    · exact hd _ h
  | [], h, _ => exact absurd rfl h
  | _ :: _ :: _ :: _ :: _, _, h => simp at h

theorem rel_pass (f : RelForm) {a : List Char} (h : a = "1".toList ∨ a = "12".toList ∨ a = "123".toList) :
    relPass f (match f with | .later => unitNames | _ => unitNames ++ unitAbbreviations) a = true := by
  rcases h with rfl | rfl | rfl <;> cases f
  · exact rel_ago_1
  · exact rel_within_1
  · exact rel_later_1
  · exact rel_ago_2
  · exact rel_within_2
  · exact rel_later_2
  · exact rel_ago_3
  · exact rel_within_3
  · exact rel_later_3

/-- **C44** `Parse` with English first on "3 days ago", "in 3 days", "3 days later" (amounts of at most three digits, all units,
singular, plural and abbreviated, any letter case) gives the base time, in the zone that applies, moved by exactly that amount. -/
theorem C44_relative {E : Env} (hE : Sound E) {s : ParserSt} {c : PCfg} (hc : EnglishFirst s c) (f : RelForm) (n w str : List Char) (u : RelUnit)
    (hn : IsNumeral n) (hl : n.length ≤ 3) (hw : f.IsUnit w u) (hstr : toLower str = toLower (f.write n w))
    (hclock : u.isClock = true → FirmClock (zonedBase c E.now))
    (hnz : (u.shift c.preserveEndOfMonth (f.sign * number n) (zonedBase c E.now)).isZero = false) :
    (E.parse s (some c) str []).2 = .ok {
      locale := ['e', 'n'], period := u.period c.timeAsPeriod
      time := u.shift c.preserveEndOfMonth (f.sign * number n) (zonedBase c E.now) } := by
  obtain ⟨a, ds, ha, hds, han⟩ := amount_sub hn hl
  have hmem : (toLower w, u) ∈ (match f with | .later => unitNames | _ => unitNames ++ unitAbbreviations) := by
    rcases hw with h | ⟨h, h'⟩
    · cases f
      · exact List.mem_append.mpr (Or.inl h)
      · exact List.mem_append.mpr (Or.inl h)
      · exact h
    · cases f
      · exact List.mem_append.mpr (Or.inr h')
      · exact List.mem_append.mpr (Or.inr h')
      · exact absurd rfl h
  have hmem' : (toLower w, u) ∈ unitNames ++ unitAbbreviations := by
    rcases hw with h | ⟨_, h'⟩
    · exact List.mem_append.mpr (Or.inl h)
    · exact List.mem_append.mpr (Or.inr h')
  have hone := List.all_eq_true.mp (rel_pass f ha) _ hmem
  have hplain := List.all_eq_true.mp unit_words_plain _ hmem'
  simp only [Bool.and_eq_true] at hone
  have hwp : ((toLower w).all fun c => !c.isDigit) = true := by
    rw [List.all_eq_true] at hplain ⊢
    intro c hc
    have := hplain c hc
    rw [Bool.and_eq_true] at this
    exact this.1
  have hlow : toLower str = (f.write a (toLower w)).map (sub ds) := by
    rw [hstr]
    rw [show toLower (f.write n w) = _ from rel_write_map f toLowerC (fun c hc => by
        rcases hc with rfl | hc
        · decide
        · simp only [Char.isLower, Bool.and_eq_true, decide_eq_true_eq] at hc
          unfold toLowerC
          rw [if_neg]
          rintro ⟨_, h2⟩
          exact absurd (UInt32.le_trans hc.1 h2) (by decide)) n w]
    rw [rel_write_map f (sub ds) (fun c hc => sub_other (by
        rcases hc with rfl | hc
        · decide
        · simp only [Char.isLower, Bool.and_eq_true, decide_eq_true_eq] at hc
          cases e : c.isDigit with
          | false => rfl
          | true =>
            simp only [Char.isDigit, Bool.and_eq_true, decide_eq_true_eq] at e
            exact absurd (UInt32.le_trans hc.1 e.2) (by decide))), han, map_sub_word hwp]
    rw [show List.map toLowerC n = n from lower_numeral hn]
    rfl
  have hascii : ∀ x ∈ str, x.toNat < 128 := by
    apply lower_inv
    rw [hlow]
    intro x hx
    obtain ⟨y, hy, rfl⟩ := List.mem_map.mp hx
    have := isAscii_mem hone.1 y hy
    cases e : y.isDigit with
    | false => rw [sub_other e]; exact this
    | true => have := digit_range (sub_digit hds e); omega
  have hp := passes_sub hE hds hone.1 hone.2 hascii hlow
  rw [phrase_map, han] at hp
  exact call_phrase hE hc f n u hn (by
    have h1 := (natOfDigits_range hn.2).2
    rw [← number_eq] at h1
    have h2 : n.length = 0 ∨ n.length = 1 ∨ n.length = 2 ∨ n.length = 3 := by omega
    rcases h2 with h2 | h2 | h2 | h2 <;> rw [h2] at h1 <;> simp at h1 <;> omega) hp hclock hnz

/-- **C44** The same for words: "yesterday", "next month", "two days ago" and so on. -/
theorem C44_words {E : Env} (hE : Sound E) {s : ParserSt} {c : PCfg} (hc : EnglishFirst s c) (str : List Char) (word : String) (k : Int) (u : RelUnit)
    (hw : (word, k, u) ∈ englishRelative) (hstr : toLower str = word.toList)
    (hclock : u.isClock = true → FirmClock (zonedBase c E.now))
    (hnz : (u.shift c.preserveEndOfMonth k (zonedBase c E.now)).isZero = false) :
    (E.parse s (some c) str []).2 = .ok {
      locale := ['e', 'n'], period := u.period c.timeAsPeriod
      time := u.shift c.preserveEndOfMonth k (zonedBase c E.now) } := by
  have h := List.all_eq_true.mp words_pass _ hw
  simp only [wordPass, Bool.and_eq_true, decide_eq_true_eq] at h
  obtain ⟨⟨⟨⟨h1, h2⟩, h3⟩, h4⟩, h5⟩ := h
  have hascii : ∀ x ∈ str, x.toNat < 128 := lower_inv (by rw [hstr]; exact isAscii_mem h1)
  have hrel : ∀ {a : List Char}, isAscii a = true → Rel2 (TagRel fun x y => y = x) a a := by
    intro a ha
    induction a with
    | nil => exact .nil
    | cons x a ih =>
      simp only [isAscii, List.all_cons, Bool.and_eq_true, decide_eq_true_eq] at ha
      refine .cons ⟨ha.1, ?_⟩ (ih ha.2)
      cases e : x.isDigit with
      | true => exact Or.inl ⟨by first | rfl | exact e, by first | rfl | exact e, rfl⟩
      | false => exact Or.inr ⟨rfl, rfl⟩
  obtain ⟨t, ht, hp⟩ := passesWith_all hE.uni hE.table en_uniform en_ascii (by decide +kernel) (g := fun x y => y = x) (fixed := allDigits) (fun _ _ => rfl) h2 hascii
    (by rw [hstr]; exact hrel h1)
  have hte : t = (RelForm.phrase (wordForm k) (wordAmount k) u).text := by
    clear hp h2
    generalize (RelForm.phrase (wordForm k) (wordAmount k) u).text = a at ht
    induction ht with
    | nil => rfl
    | cons h _ ih =>
      rw [ih]
      congr 1
      rcases h.same with ⟨_, _, h⟩ | ⟨_, h⟩ <;> exact h
  subst hte
  have hsign : (wordForm k).sign * number (wordAmount k) = k := by
    rw [h5]
    unfold wordForm
    split <;> simp only [RelForm.sign] <;> omega
  have hk : k.natAbs ≤ 10 := by
    have : (englishRelative.all fun x => decide (x.2.1.natAbs ≤ 10)) = true := by decide
    exact of_decide_eq_true (List.all_eq_true.mp this _ hw)
  have := call_phrase hE hc (wordForm k) (wordAmount k) u ⟨h3, fun c hc => List.all_eq_true.mp h4 c hc⟩ (by omega) hp hclock (by rw [hsign]; exact hnz)
  rwa [hsign] at this

/-! ## The hour that is shown twice -/

/-- A zone whose clock goes back an hour, as at the end of summer time (Central European Time, 27 October 2024). -/
def backZone : Loc := { name := "CET", off := fun t => if t < 1729990800 then 7200 else 3600 }

/-- 02:30 on that day, for the first time. -/
def firstHalfPast : Time := ⟨1729989000, 0, backZone⟩

theorem half_past_shows : Shows firstHalfPast 2024 10 27 2 30 0 0 := by
  refine ⟨?_, ?_, ?_, ?_, ?_, ?_, ?_⟩ <;> decide +kernel

/-- **C44 (finding).** In the hour a zone's clock shows twice, "10 minutes ago" is 50 minutes in the future: the parser first adds
no days to the current time, which replaces it by the second time the clock shows the same. -/
theorem C44_ambiguous_hour {E : Env} (hE : Sound E) : ∃ (c : PCfg) (r : DateRes), EnglishFirst {} c ∧ c.currentTime = firstHalfPast ∧
    (E.parse {} (some c) "10 minutes ago".toList []).2 = .ok r ∧ r.time.sec = firstHalfPast.sec + 50 * 60 := by
  have h := call_moment hE (s := {}) (c := { currentTime := firstHalfPast }) (str := "10 minutes ago".toList) ⟨rfl, rfl, rfl, Or.inr ⟨rfl, rfl⟩, rfl, rfl, Or.inl rfl⟩
    .ago "10".toList .minute (by unfold IsNumeral; decide) (by decide) (by
      have := List.all_eq_true.mp rel_ago_2 ("minutes".toList, .minute) (by decide)
      simp only [Bool.and_eq_true] at this
      have := passes_sub hE (ds := "010".toList) (by decide) this.1 this.2 (s := "10 minutes ago".toList) (by decide) (by decide)
      rwa [phrase_map] at this) (by
      rw [show (RelForm.phrase .ago "10".toList .minute).moment (enCfg { currentTime := firstHalfPast } E.now) (zonedBase { currentTime := firstHalfPast } E.now) =
        later (moved false firstHalfPast 0 0 0) (-600) from rfl]
      decide +kernel)
  refine ⟨_, _, ⟨rfl, rfl, rfl, Or.inr ⟨rfl, rfl⟩, rfl, rfl, Or.inl rfl⟩, rfl, h, ?_⟩
  rw [show (RelForm.phrase .ago "10".toList .minute).moment (enCfg { currentTime := firstHalfPast } E.now) (zonedBase { currentTime := firstHalfPast } E.now) =
        later (moved false firstHalfPast 0 0 0) (-600) from rfl]
  decide +kernel

/-! ## Examples -/

example : (demoEnv.parse {} (some {}) "3 Days ago".toList []).2 =
    .ok { locale := ['e', 'n'], period := .day, time := goDate 2024 3 12 12 0 0 0 Loc.utc } := by
  rw [C44_relative demo_sound demo_first .ago "3".toList "Days".toList "3 Days ago".toList .day (by unfold IsNumeral; decide) (by decide)
    (Or.inl (by decide)) rfl (fun h => by cases h) (by decide +kernel)]
  rfl

example : (demoEnv.parse {} (some {}) "Tomorrow".toList []).2 =
    .ok { locale := ['e', 'n'], period := .day, time := goDate 2024 3 16 12 0 0 0 Loc.utc } := by
  rw [C44_words demo_sound demo_first "Tomorrow".toList "tomorrow" 1 .day (by decide) (by decide) (fun h => by cases h) (by decide +kernel)]
  rfl

end Verif.Props
