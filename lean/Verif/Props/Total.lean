import Verif.Spec.Total
import Verif.Lemmas.Checked
import Verif.Props.SearchText
import Verif.Lemmas.Whole
/-! # C50: Parse always returns -/
set_option autoImplicit false
set_option maxRecDepth 100000
namespace Verif.Props
open Verif.Go Verif.Model Verif.Lemmas Verif.Spec Verif.Data

/-! ## The data of the locales -/

/-- What to check in the data of a locale. -/
def totalCheck (d : LangData) : Bool :=
  (match d.rxCombined with
    | some (p, k) => decide (0 < minLen p) && (groupsRead k).all (fun n => sure n p)
    | none => true) &&
  d.knownWords.all (!·.isEmpty) && d.translations.all (fun x => !x.2.isEmpty)

theorem all_totalCheck : allLangs.all (fun x => totalCheck x.1 && (x.2.map totalCheck).getD true) = true := by decide +kernel

/-- The names in the table of locales are those of the data. -/
theorem names_eq : localeData.map (·.2.name) = allLangs.map (·.1.name) := by decide +kernel
/-- A number for a name, in the order of the names. -/
def nameNumber (n : List Char) : Nat := n.foldl (fun a c => a * 256 + c.toNat) 0 * 256 ^ (20 - n.length)
def rising : List Nat → Bool
  | a :: b :: r => Nat.blt a b && rising (b :: r)
  | _ => true
theorem rising_pairwise : ∀ (l : List Nat), rising l = true → l.Pairwise (· < ·) := by
  intro l
  induction l with
  | nil => intro _; exact .nil
  | cons a l ih =>
    intro h
    cases l with
    | nil => simp
    | cons b l =>
      unfold rising at h
      rw [Bool.and_eq_true, Nat.blt_eq] at h
      have hl := ih h.2
      refine .cons (fun x hx => ?_) hl
      rcases List.mem_cons.mp hx with rfl | hx
      · exact h.1
      · exact Nat.lt_trans h.1 ((List.pairwise_cons.mp hl).1 x hx)
theorem numbers_rise : rising (allLangs.map fun x => nameNumber x.1.name) = true := by decide +kernel
theorem names_nodup : (allLangs.map (·.1.name)).Nodup := by
  have h := rising_pairwise _ numbers_rise
  rw [List.pairwise_map] at h
  rw [List.nodup_iff_pairwise_ne, List.pairwise_map]
  exact h.imp fun hne e => by rw [e] at hne; exact absurd hne (Nat.lt_irrefl _)

theorem translations_merge {p : Option LangData} {d : LangData} (hp : ∀ q, p = some q → q.translations.all (fun x => !x.2.isEmpty) = true)
    (hd : d.translations.all (fun x => !x.2.isEmpty) = true) : (mergeLang p d).translations.all (fun x => !x.2.isEmpty) = true := by
  cases p with
  | none => exact hd
  | some q =>
    have hq := hp q rfl
    rw [List.all_eq_true] at hq hd ⊢
    unfold mergeLang
    intro x hx
    rcases List.mem_append.mp hx with hx | hx
    · obtain ⟨y, hy, rfl⟩ := List.mem_map.mp hx
      have h1 := hq y hy
      simp only [Bool.not_eq_true', List.isEmpty_eq_false_iff] at h1 ⊢
      refine compact_ne _ ?_
      intro he
      have := congrArg List.length he
      rw [List.length_mergeSort] at this
      have h1 : 0 < y.2.length := List.length_pos_iff.mpr h1
      simp only [List.length_append, List.length_nil] at this
      omega
    · exact hd x (List.mem_filter.mp hx).1

/-- Splitting and translating end in every supported locale. -/
theorem supported_splits (U : Uni) {x : LangData × Option LangData} (hx : x ∈ allLangs) : Splits ((mergeLang x.2 x.1).lang U) := by
  have h := List.all_eq_true.mp all_totalCheck x hx
  obtain ⟨d, p⟩ := x
  simp only [Bool.and_eq_true] at h
  obtain ⟨h1, h2⟩ := h
  have hp : ∀ q, p = some q → totalCheck q = true := by
    intro q hq; subst hq; simpa using h2
  have comb : ∀ rx k, (mergeLang p d).rxCombined = some (rx, k) → 0 < minLen rx ∧ ∀ n ∈ groupsRead k, sure n rx = true := by
    have one : ∀ e : LangData, totalCheck e = true → ∀ rx k, e.rxCombined = some (rx, k) → 0 < minLen rx ∧ ∀ n ∈ groupsRead k, sure n rx = true := by
      intro e he rx k hc
      unfold totalCheck at he
      rw [hc] at he
      simp only [Bool.and_eq_true, decide_eq_true_eq, List.all_eq_true] at he
      exact he.1.1
    intro rx k hc
    cases p with
    | none => exact one d h1 rx k hc
    | some q =>
      simp only [mergeLang] at hc
      split at hc
      · exact one q (hp q rfl) rx k hc
      · exact one d h1 rx k hc
  refine ⟨?_, ?_, ?_, ?_⟩
  · intro rx k hc s t ht
    simp only [LangData.lang, Option.map_eq_some_iff] at hc
    obtain ⟨⟨pt, k'⟩, hc, he⟩ := hc
    cases he
    have := rxRun_min U pt s t ht
    have := (comb pt k' hc).1
    omega
  · intro rx k hc n hn s t ht
    simp only [LangData.lang, Option.map_eq_some_iff] at hc
    obtain ⟨⟨pt, k'⟩, hc, he⟩ := hc
    cases he
    exact run_sure U n pt ((comb pt k' hc).2 n hn) s t ht
  · intro hm
    have : [] ∈ d.knownWords := by cases p <;> exact hm
    unfold totalCheck at h1
    simp only [Bool.and_eq_true, List.all_eq_true] at h1
    have := h1.1.2 _ this
    simp at this
  · intro w ts hw
    have ht : (mergeLang p d).translations.all (fun x => !x.2.isEmpty) = true := by
      refine translations_merge ?_ ?_
      · intro q hq
        have := hp q hq
        unfold totalCheck at this
        simp only [Bool.and_eq_true] at this
        exact this.2
      · unfold totalCheck at h1
        simp only [Bool.and_eq_true] at h1
        exact h1.2
    unfold Lang.translateWord at hw
    split at hw
    · cases hw; simp
    · have := List.all_eq_true.mp ht _ (lookup_mem _ _ _ hw)
      intro he
      subst he
      simp at this

theorem info_supported {n : Name} {l : LocaleInfo} (h : getLocaleData n = some l) : ∃ x ∈ allLangs, x.1.name = l.name := by
  unfold getLocaleData Model.lookup at h
  simp only [Option.map_eq_some_iff] at h
  obtain ⟨y, hy, rfl⟩ := h
  have : y.2.name ∈ localeData.map (·.2.name) := List.mem_map_of_mem (f := fun z => z.2.name) (List.mem_of_find?_eq_some hy)
  rw [names_eq] at this
  obtain ⟨x, hx, e⟩ := List.mem_map.mp this
  exact ⟨x, hx, e⟩

theorem info_splits {E : Env} (hE : HasLocaleData E) {n : Name} {l : LocaleInfo} (h : getLocaleData n = some l) : Splits (E.lang l.name) := by
  obtain ⟨x, hx, e⟩ := info_supported h
  rw [← e, hE x hx]
  exact supported_splits E.uni hx

/-! ## The checked functions -/

theorem translate_checked (U : Uni) {L : Lang} (h : Splits L) (skip : List (List Char)) (str : List Char) (keep : Bool) :
    translateC U L skip str keep = .ok ((translate U L skip str keep).getD []) := by
  unfold translateC translate
  dsimp only
  rw [splitText_checked U h]
  dsimp only
  rw [C31_all_combinations _ (by
    intro e he
    obtain ⟨t, _, rfl⟩ := List.mem_map.mp he
    exact translateToken_ne h _ _ _)]
  rfl

/-- A supported locale. -/
def Known (l : LocaleInfo) : Prop := ∃ n, getLocaleData n = some l

theorem any_checked {E : Env} (hE : HasLocaleData E) (cfg : Cfg) {l : LocaleInfo} (h : Known l) : ∀ (strs : List (List Char)),
    anyC (E.applicableC cfg l) strs = .ok (strs.any (E.parts.applicable cfg l)) := by
  obtain ⟨n, hn⟩ := h
  intro strs
  induction strs with
  | nil => rfl
  | cons a r ih =>
    have : E.applicableC cfg l a = .ok (E.parts.applicable cfg l a) := applicable_checked E.uni (info_splits hE hn) _ _
    rw [anyC, this, List.any_cons]
    cases E.parts.applicable cfg l a with
    | true => rfl
    | false => exact ih

theorem checkPrevious_checked {E : Env} (hE : HasLocaleData E) (cfg : Cfg) (strs : List (List Char)) : ∀ (ls : List LocaleInfo), (∀ l ∈ ls, Known l) →
    checkPreviousC E cfg strs ls = .ok (checkPrevious E.parts cfg strs ls) := by
  intro ls
  induction ls with
  | nil => intro _; rfl
  | cons l ls ih =>
    intro h
    rw [checkPreviousC, any_checked hE cfg (h l (by simp)), checkPrevious]
    cases strs.any (E.parts.applicable cfg l) with
    | true => rfl
    | false => exact ih fun x hx => h x (by simp [hx])

theorem applicableLoop_checked {E : Env} (hE : HasLocaleData E) (cfg : Cfg) (strs : List (List Char)) : ∀ (ls : List LocaleInfo) (rs : List LocaleInfo)
    (tr : List Name), (∀ l ∈ ls, Known l) → applicableLoopC E cfg strs ls rs tr = .ok (applicableLoop E.parts cfg strs ls rs tr) := by
  intro ls
  induction ls with
  | nil => intro _ _ _; rfl
  | cons l ls ih =>
    intro rs tr h
    have hr : ∀ x ∈ ls, Known x := fun x hx => h x (by simp [hx])
    rw [applicableLoopC, applicableLoop]
    split
    · exact ih _ _ hr
    · rw [any_checked hE cfg (h l (by simp))]
      cases hb : strs.any (E.parts.applicable cfg l) with
      | true => simp only [if_true]; exact ih _ _ hr
      | false => simp only [Bool.false_eq_true, if_false]; exact ih _ _ hr

theorem applicableLoop_known {P : Parts} (cfg : Cfg) (strs : List (List Char)) : ∀ (ls : List LocaleInfo) (rs : List LocaleInfo)
    (tr : List Name), (∀ l ∈ ls, Known l) → (∀ l ∈ rs, Known l) → ∀ l ∈ (applicableLoop P cfg strs ls rs tr).1, Known l := by
  intro ls
  induction ls with
  | nil => intro rs tr _ h; exact h
  | cons l ls ih =>
    intro rs tr h hrs
    have hr : ∀ x ∈ ls, Known x := fun x hx => h x (by simp [hx])
    rw [applicableLoop]
    split
    · exact ih _ _ hr hrs
    · split
      · refine ih _ _ hr ?_
        intro x hx
        rcases List.mem_append.mp hx with hx | hx
        · exact hrs x hx
        · rw [List.mem_singleton.mp hx]; exact h l (by simp)
      · exact ih _ _ hr hrs

theorem localeInfos_known (L : List Name) : ∀ l ∈ localeInfos L, Known l := by
  intro l hl
  unfold localeInfos at hl
  obtain ⟨n, _, hn⟩ := List.mem_filterMap.mp hl
  exact ⟨n, hn⟩

theorem defaults_known (c : PCfg) : ∀ l ∈ defaultLocales c, Known l := by
  intro l hl
  unfold defaultLocales at hl
  split at hl
  · simp at hl
  · split at hl
    · exact localeInfos_known _ l hl
    · simp at hl

theorem checkPrevious_mem {P : Parts} {cfg : Cfg} {strs : List (List Char)} : ∀ {ls : List LocaleInfo} {l : LocaleInfo},
    checkPrevious P cfg strs ls = some l → l ∈ ls := by
  intro ls
  induction ls with
  | nil => intro l h; simp [checkPrevious] at h
  | cons a ls ih =>
    intro l h
    rw [checkPrevious] at h
    split at h
    · cases h; simp
    · exact List.mem_cons_of_mem _ (ih h)

theorem previous_known {P : Parts} {s : ParserSt} (hs : KnownState s) (c : PCfg) (cfg : Cfg) (str : List Char) :
    ∀ l ∈ previousLocale P s c cfg str, Known l := by
  intro l hl
  unfold previousLocale at hl
  split at hl
  · rw [Option.mem_toList] at hl
    exact hs l (checkPrevious_mem hl)
  · simp at hl

theorem getApplicable_checked {E : Env} (hE : HasLocaleData E) {s : ParserSt} (hs : KnownState s) (c : PCfg) (cfg : Cfg) (str : List Char) :
    getApplicableLocalesC E s c cfg str = .ok (getApplicableLocales E.parts s c cfg str) := by
  unfold getApplicableLocalesC getApplicableLocales
  have hprev : (if c.tryPrevious then checkPreviousC E cfg (dateStrings E.parts str) s.used else .ok none) =
      .ok (if c.tryPrevious then checkPrevious E.parts cfg (dateStrings E.parts str) s.used else none) := by
    split
    · exact checkPrevious_checked hE cfg _ _ hs
    · rfl
  have hp : (if c.tryPrevious then checkPrevious E.parts cfg (dateStrings E.parts str) s.used else none).toList =
      previousLocale E.parts s c cfg str := by
    unfold previousLocale
    split <;> rfl
  rw [hprev]
  dsimp only
  rw [hp]
  cases getLocales c.locales (languagesFor E.parts s c str) c.region c.useGivenOrder false with
  | ok L =>
    dsimp only
    rw [applicableLoop_checked hE cfg _ _ _ _ (localeInfos_known L)]
  | error e => cases e <;> rfl

theorem getApplicable_known {P : Parts} {s : ParserSt} (hs : KnownState s) {c : PCfg} {cfg : Cfg} {str : List Char} {ls : List LocaleInfo}
    (h : getApplicableLocales P s c cfg str = .ok ls) : ∀ l ∈ ls, Known l := by
  have hp := previous_known (P := P) hs c cfg str
  unfold getApplicableLocales at h
  dsimp only at h
  split at h
  · cases h
    intro l hl
    rcases List.mem_append.mp hl with hl | hl
    · exact hp l hl
    · exact defaults_known c l (List.mem_filter.mp hl).1
  · cases h
  · cases h
    intro l hl
    rcases List.mem_append.mp hl with hl | hl
    · exact applicableLoop_known cfg _ _ _ _ (localeInfos_known _) hp l hl
    · exact defaults_known c l (List.mem_filter.mp hl).1

theorem dateOr_ok {r : Except Fault DateRes} (h : (∃ x, r = .ok x) ∨ r = .error .error) : dateOr r = .ok (orZero r) := by
  rcases h with ⟨x, rfl⟩ | rfl <;> rfl

theorem tryAbsolute_checked (E : Env) (cfg : Cfg) : ∀ ts : List (List Char), tryAbsoluteC E cfg ts = .ok (tryAbsolute E.parts cfg ts) := by
  intro ts
  induction ts with
  | nil => rfl
  | cons t r ih =>
    rw [tryAbsoluteC, tryAbsolute]
    split
    · rw [dateOr_ok (absoluteParse_total cfg E.now E.monthFirst _ _)]
      dsimp only
      rw [ih]
      split
      · rename_i h; exact (if_pos h ▸ rfl)
      · rename_i h; exact (if_neg h ▸ rfl)
    · exact ih

theorem nsLoop_total (cfg : Cfg) : ∀ (l : List (List Char × List (List Char))) (a : DateRes), (∃ x, nsLoop cfg l a = .ok x) ∨ nsLoop cfg l a = .error .error := by
  intro l
  induction l with
  | nil =>
    intro a
    rw [nsLoop]
    split
    · exact Or.inr rfl
    · exact Or.inl ⟨_, rfl⟩
  | cons p l ih =>
    intro a
    obtain ⟨f, ps⟩ := p
    rw [nsLoop]
    split
    · exact ih _
    · split
      · exact ih _
      · dsimp only
        split
        · exact ih _
        · split
          · exact Or.inl ⟨_, rfl⟩
          · exact ih _

theorem nospace_total (cfg : Cfg) (y : Int) (str : List Char) : (∃ x, nospaceParse cfg y str = .ok x) ∨ nospaceParse cfg y str = .error .error := by
  unfold nospaceParse
  split
  · exact Or.inr rfl
  · dsimp only
    split
    · exact Or.inr rfl
    · generalize (if (cfg.dateOrder.isEmpty && (nsClean str).length == 8 && (nsClean str).all Char.isDigit) = true then
        findBestMatchingDate (nsClean str) nsEightDigit else DateRes.zero) = best
      split
      · exact Or.inl ⟨_, rfl⟩
      · cases dateTimeFormats (if cfg.dateOrder.isEmpty = true then "mdy".toList else toLower cfg.dateOrder) with
        | none => exact Or.inr rfl
        | some fs => exact nsLoop_total _ _ _

theorem tryNospace_checked (E : Env) (cfg : Cfg) : ∀ ts : List (List Char), tryNospaceC E cfg ts = .ok (tryNospace E.parts cfg ts) := by
  intro ts
  induction ts with
  | nil => rfl
  | cons t r ih =>
    rw [tryNospaceC, tryNospace]
    split
    · rw [dateOr_ok (nospace_total cfg E.now.year _)]
      dsimp only
      rw [ih]
      split
      · rename_i h; exact (if_pos h ▸ rfl)
      · rename_i h; exact (if_neg h ▸ rfl)
    · exact ih

theorem tryType_checked {E : Env} (hE : HasLocaleData E) (cfg : Cfg) {l : LocaleInfo} (hl : Known l) (str : List Char) (formats : List (List Char)) (t : Nat) :
    tryTypeC E cfg l str formats t = .ok (tryType E.parts cfg l str formats t) := by
  obtain ⟨n, hn⟩ := hl
  have htr : ∀ keep, E.translateC cfg l str keep = .ok (E.parts.translate cfg l str keep) :=
    fun keep => translate_checked E.uni (info_splits hE hn) _ _ _
  match t with
  | 0 => rfl
  | 1 => rfl
  | 2 => simp only [tryTypeC, tryType, htr]
  | 3 => simp only [tryTypeC, tryType, htr]
  | 4 => unfold tryTypeC tryType; rw [htr]; exact tryAbsolute_checked E cfg _
  | 5 => unfold tryTypeC tryType; rw [htr]; exact tryNospace_checked E cfg _
  | _ + 6 => rfl

theorem typeLoop_checked {E : Env} (hE : HasLocaleData E) (cfg : Cfg) {l : LocaleInfo} (hl : Known l) (str : List Char) (formats : List (List Char)) :
    ∀ ts : List Nat, typeLoopC E cfg l str formats ts = .ok (typeLoop E.parts cfg l str formats ts) := by
  intro ts
  induction ts with
  | nil => rfl
  | cons t r ih =>
    rw [typeLoopC, tryType_checked hE cfg hl, typeLoop]
    dsimp only
    rw [ih]
    split <;> rfl

theorem localeLoop_checked {E : Env} (hE : HasLocaleData E) (c : PCfg) (cfg : Cfg) (types : List Nat) (str : List Char) (formats : List (List Char)) :
    ∀ ls : List LocaleInfo, (∀ l ∈ ls, Known l) → localeLoopC E c cfg types str formats ls = .ok (localeLoop E.parts c cfg types str formats ls) := by
  intro ls
  induction ls with
  | nil => intro _; rfl
  | cons l r ih =>
    intro h
    rw [localeLoopC, typeLoop_checked hE _ (h l (by simp)), localeLoop]
    cases typeLoop E.parts (localeCfg c cfg l) l str formats types with
    | none => exact ih fun x hx => h x (by simp [hx])
    | some dt => rfl

theorem localeLoop_mem {P : Parts} {c : PCfg} {cfg : Cfg} {types : List Nat} {str : List Char} {formats : List (List Char)} :
    ∀ {ls : List LocaleInfo} {dt : DateRes} {l : LocaleInfo}, localeLoop P c cfg types str formats ls = some (dt, l) → l ∈ ls := by
  intro ls
  induction ls with
  | nil => intro dt l h; simp [localeLoop] at h
  | cons a ls ih =>
    intro dt l h
    rw [localeLoop] at h
    split at h
    · cases h; simp
    · exact List.mem_cons_of_mem _ (ih h)

theorem parseWithTypes_checked {E : Env} (hE : HasLocaleData E) {s : ParserSt} (hs : KnownState s) (c : PCfg) (str : List Char) (formats : List (List Char)) :
    parseWithTypesC E s c str formats = .ok (parseWithTypes E.parts s c str formats) ∧ KnownState (parseWithTypes E.parts s c str formats).1 := by
  unfold parseWithTypesC parseWithTypes
  cases c.validate with
  | error e => exact ⟨rfl, hs⟩
  | ok u =>
    dsimp only
    by_cases hz : (!(E.parts.formatted c.toInternal str formats).isZero) = true
    · rw [if_pos hz, if_pos hz]; exact ⟨rfl, hs⟩
    · rw [if_neg hz, if_neg hz, getApplicable_checked hE hs]
      cases hg : getApplicableLocales E.parts s c c.toInternal (E.parts.sanitize str) with
      | error e => exact ⟨rfl, hs⟩
      | ok ls =>
        have hk := getApplicable_known hs hg
        dsimp only
        rw [localeLoop_checked hE c _ _ _ _ ls hk]
        cases hl : localeLoop E.parts c c.toInternal s.types (E.parts.sanitize str) formats ls with
        | none => exact ⟨rfl, hs⟩
        | some p =>
          obtain ⟨dt, l⟩ := p
          refine ⟨rfl, ?_⟩
          dsimp only
          split
          · unfold saveUsed
            split
            · exact hs
            · intro x hx
              rcases List.mem_append.mp hx with hx | hx
              · exact hs x hx
              · rw [List.mem_singleton.mp hx]; exact hk l (localeLoop_mem hl)
          · exact hs

/-! ## The theorems -/

/-- **C50.** `Parse` returns, whatever the text, the formats, the configuration and the parser types: no panic, no endless
loop.  What it returns is what `Env.parse`, which the other theorems are about, returns; and the parser then only remembers
supported locales. -/
theorem C50_parse_returns (E : Env) (hE : HasLocaleData E) (s : ParserSt) (hs : KnownState s) (c : Option PCfg) (str : List Char)
    (formats : List (List Char)) :
    E.parseC s c str formats = .ok (E.parse s c str formats) ∧ KnownState (E.parse s c str formats).1 := by
  unfold Env.parseC Env.parse Model.parse
  cases s.types.find? (fun t => decide (t > 5)) with
  | some t => exact ⟨rfl, hs⟩
  | none =>
    dsimp only
    refine parseWithTypes_checked hE ?_ _ str formats
    split
    · exact hs
    · exact hs

/-- **C50.** Any number of calls, one after the other, with any configurations: all of them return. -/
theorem C50_calls_return (E : Env) (hE : HasLocaleData E) : ∀ (calls : List ParseCall) (s : ParserSt), KnownState s → ∃ rs, Returns E s calls rs := by
  intro calls
  induction calls with
  | nil => intro s _; exact ⟨[], .nil s⟩
  | cons c cs ih =>
    intro s hs
    obtain ⟨h1, h2⟩ := C50_parse_returns E hE s hs c.cfg c.text c.formats
    obtain ⟨rs, h3⟩ := ih _ h2
    exact ⟨_ :: rs, .cons h1 h3⟩

/-- **C50.** The absolute parser of each calendar, with any text and zone, gives a date or an error (for the other calendars:
if their library does). -/
theorem C50_absolute (e : AEnv) (hf : SafeFns e.fns) (str : List Char) (tz : Option Tz) :
    (∃ r, (absInit e str).bind (fun s => absParse e s tz) = .ok r) ∨ (absInit e str).bind (fun s => absParse e s tz) = .error .error := by
  refine abs_total hf str tz ?_
  cases absInit e str <;> rfl

/-! ## The hypotheses are met -/

/-- The library with all its locales. -/
def fullEnv (E : Env) : Env :=
  { E with lang := fun n => match allLangs.find? (fun x => x.1.name == n) with
      | some x => (mergeLang x.2 x.1).lang E.uni
      | none => { name := n } }

theorem full_hasData (E : Env) : HasLocaleData (fullEnv E) := by
  have key : ∀ (l : List (LangData × Option LangData)), (l.map (·.1.name)).Nodup → ∀ x ∈ l, l.find? (fun y => y.1.name == x.1.name) = some x := by
    intro l
    induction l with
    | nil => intro _ x hx; simp at hx
    | cons a l ih =>
      intro hn x hx
      rw [List.map_cons, List.nodup_cons] at hn
      rw [List.find?_cons]
      rcases List.mem_cons.mp hx with rfl | hx
      · simp
      · have : (a.1.name == x.1.name) = false := by
          rw [beq_eq_false_iff_ne]
          intro he
          exact hn.1 (by rw [he]; exact List.mem_map_of_mem (f := fun z => z.1.name) hx)
        rw [this]
        exact ih hn.2 x hx
  intro x hx
  have := key allLangs names_nodup x hx
  show (match allLangs.find? (fun y => y.1.name == x.1.name) with
      | some x => (mergeLang x.2 x.1).lang E.uni
      | none => { name := x.1.name }) = _
  rw [this]
  rfl

/-- A new parser. -/
example : KnownState {} := fun l h => by simp at h
/-- A parser that remembers Catalan. -/
example : KnownState { used := [⟨['c', 'a'], ['D', 'M', 'Y'], false, 0⟩], tracker := [['c', 'a']] } := by
  intro l hl
  have h : getLocaleData ['c', 'a'] = some ⟨['c', 'a'], ['D', 'M', 'Y'], false, 0⟩ := by decide +kernel
  exact ⟨['c', 'a'], by rw [List.mem_singleton.mp hl]; exact h⟩
/-- The checked functions do tell a fault: an empty pattern loops for ever, an empty known word too, a word without translation
panics. -/
example : splitWithRegexC (.star .digit) 1 ['a'] = .error .panic ∧ splitWithRegexC (.star .digit) 0 ['a'] = .error .diverge := by
  constructor <;> (rw [splitWithRegexC]; decide)
example : splitByKnownC asciiUni { name := [], noWordSpacing := true, knownWords := [[]] } false ['a'] = .error .diverge := by
  rw [splitByKnownC]; decide
example : weekdayShift .past 0 ['m', 'o'] = .error .panic ∧ weekdayShift .past 0 "moon".toList = .error .diverge := by decide +kernel

end Verif.Props
