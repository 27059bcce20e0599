import Verif.Spec.Args

/-!
# Lemmas: the command line
-/

set_option linter.unusedSimpArgs false

namespace Cdx

open Spec

/-! ## The table of options -/

theorem option_mem (o : Opt) : (o, o.long, o.short, o.takesValue) ∈ options := by
  cases o <;> decide

theorem option_unique {o : Opt} {n : String} {s : Option Char} {b : Bool} (h : (o, n, s, b) ∈ options) :
    n = o.long ∧ s = o.short ∧ b = o.takesValue := by
  have : ∀ e ∈ options, e.2.1 = e.1.long ∧ e.2.2.1 = e.1.short ∧ e.2.2.2 = e.1.takesValue := by decide
  exact this _ h

theorem byLong_long (o : Opt) : Opt.byLong o.long = some o := by cases o <;> decide

theorem byShort_short (o : Opt) {c : Char} (h : o.short = some c) : Opt.byShort c = some o := by
  cases o <;> first | (cases h; decide) | cases h

theorem long_noEquals (o : Opt) : ∀ c ∈ o.long.toList, c ≠ '=' := by cases o <;> decide

theorem byLong_some {s : String} {o : Opt} (h : Opt.byLong s = some o) : o.long = s := by
  have := List.find?_some h
  simpa using this

theorem byShort_some {c : Char} {o : Opt} (h : Opt.byShort c = some o) : o.short = some c := by
  have := List.find?_some h
  simpa using this

theorem short_ne_dash {o : Opt} {c : Char} (h : o.short = some c) : c ≠ '-' := by
  rintro rfl
  cases o <;> cases h

private theorem takeWhile_every {p : Char → Bool} {l r : List Char} (h : ∀ c ∈ l, p c = true) :
    (l ++ r).takeWhile p = l ++ r.takeWhile p := by
  induction l with
  | nil => rfl
  | cons a l ih =>
    rw [List.cons_append, List.takeWhile_cons, if_pos (h a List.mem_cons_self),
      ih fun c hc => h c (List.mem_cons_of_mem _ hc), List.cons_append]

private theorem dropWhile_every {p : Char → Bool} {l r : List Char} (h : ∀ c ∈ l, p c = true) :
    (l ++ r).dropWhile p = r.dropWhile p := by
  induction l with
  | nil => rfl
  | cons a l ih =>
    rw [List.cons_append, List.dropWhile_cons, if_pos (h a List.mem_cons_self),
      ih fun c hc => h c (List.mem_cons_of_mem _ hc)]

/-! ## Single arguments -/

theorem readLong_flag (o : Opt) : readLong o.long.toList =
    if o.takesValue then some ([], some o) else some ([(o, "")], none) := by
  have hp : ∀ c ∈ o.long.toList, (decide (c ≠ '=')) = true := fun c hc => decide_eq_true (long_noEquals o c hc)
  have h1 := takeWhile_every (r := []) hp
  have h2 := dropWhile_every (r := []) hp
  rw [List.append_nil] at h1 h2
  unfold readLong
  rw [h1, h2, List.takeWhile_nil, List.dropWhile_nil, List.append_nil, String.ofList_toList, byLong_long]

theorem readLong_value (o : Opt) (v : List Char) : readLong (o.long.toList ++ '=' :: v) =
    if o.takesValue then some ([(o, String.ofList v)], none) else none := by
  have hp : ∀ c ∈ o.long.toList, (decide (c ≠ '=')) = true := fun c hc => decide_eq_true (long_noEquals o c hc)
  unfold readLong
  rw [takeWhile_every hp, dropWhile_every hp, List.takeWhile_cons, List.dropWhile_cons]
  simp only [ne_eq, not_true_eq_false, decide_false, Bool.false_eq_true, if_false, List.append_nil,
    String.ofList_toList, byLong_long]

theorem readLong_some {cs : List Char} {r : List (Opt × String) × Option Opt} (h : readLong cs = some r) :
    ∃ o : Opt, (cs = o.long.toList ∧ o.takesValue = true ∧ r = ([], some o)) ∨
      (cs = o.long.toList ∧ o.takesValue = false ∧ r = ([(o, "")], none)) ∨
      ∃ v, cs = o.long.toList ++ '=' :: v ∧ o.takesValue = true ∧ r = ([(o, String.ofList v)], none) := by
  unfold readLong at h
  have hcs := List.takeWhile_append_dropWhile (p := fun c : Char => decide (c ≠ '=')) (l := cs)
  split at h
  · cases h
  · rename_i o ho
    have ho := byLong_some ho
    have ho : o.long.toList = cs.takeWhile (fun c => decide (c ≠ '=')) := by
      rw [ho, String.toList_ofList]
    refine ⟨o, ?_⟩
    split at h
    · rename_i hd
      rw [hd, List.append_nil, ← ho] at hcs
      split at h
      · cases h; exact .inl ⟨hcs.symm, ‹_›, rfl⟩
      · cases h; exact .inr (.inl ⟨hcs.symm, by simpa using ‹¬ o.takesValue = true›, rfl⟩)
    · rename_i c v hd
      have hc : c = '=' := by
        have := List.head?_dropWhile_not (fun c : Char => decide (c ≠ '=')) cs
        rw [hd] at this
        simpa using this
      subst hc
      rw [hd, ← ho] at hcs
      split at h
      · cases h; exact .inr (.inr ⟨v, hcs.symm, ‹_›, rfl⟩)
      · cases h

theorem readShorts_letters {fs : List (Opt × String)} {cs : List Char} (h : Letters fs cs)
    (rest : List Char) : readShorts (cs ++ rest) = (readShorts rest).map fun r => (fs ++ r.1, r.2) := by
  induction h with
  | nil => simp
  | @cons o n c fs cs ho hl ih =>
    obtain ⟨-, hs, hv⟩ := option_unique ho
    rw [List.cons_append, readShorts, byShort_short o hs.symm, ih]
    simp only [← hv, Bool.false_eq_true, if_false]
    cases readShorts rest with
    | none => rfl
    | some r => rfl

theorem readShorts_joined {o : Opt} {c : Char} {v : List Char} (hs : o.short = some c)
    (hv : o.takesValue = true) (hq : v.head? ≠ some '=') (hne : v ≠ []) :
    readShorts (c :: v) = some ([(o, String.ofList v)], none) := by
  rw [readShorts, byShort_short o hs]
  simp only [hv, if_true]
  split
  · exact absurd rfl hne
  · exact absurd rfl hq
  · rfl

theorem readShorts_some {cs : List Char} {r : List (Opt × String) × Option Opt}
    (h : readShorts cs = some r) : ∃ fs ls, Letters fs ls ∧
      ((cs = ls ∧ r = (fs, none)) ∨
       ∃ o c, o.short = some c ∧ o.takesValue = true ∧
        ((cs = ls ++ [c] ∧ r = (fs, some o)) ∨
         (∃ v, cs = ls ++ c :: '=' :: v ∧ r = (fs ++ [(o, String.ofList v)], none)) ∨
         (∃ v, v ≠ [] ∧ v.head? ≠ some '=' ∧ cs = ls ++ c :: v ∧
            r = (fs ++ [(o, String.ofList v)], none)))) := by
  induction cs generalizing r with
  | nil => cases h; exact ⟨[], [], .nil, .inl ⟨rfl, rfl⟩⟩
  | cons c cs ih =>
    rw [readShorts] at h
    split at h
    · cases h
    · rename_i o ho
      have ho := byShort_some ho
      split at h
      · rename_i hv
        split at h
        · cases h; exact ⟨[], [], .nil, .inr ⟨o, c, ho, hv, .inl ⟨rfl, rfl⟩⟩⟩
        · rename_i v
          cases h; exact ⟨[], [], .nil, .inr ⟨o, c, ho, hv, .inr (.inl ⟨v, rfl, rfl⟩)⟩⟩
        · rename_i hn he
          cases h
          refine ⟨[], [], .nil, .inr ⟨o, c, ho, hv, .inr (.inr ⟨cs, hn, ?_, rfl, rfl⟩)⟩⟩
          intro hh
          cases cs with
          | nil => cases hh
          | cons a l => cases hh; exact he l rfl
      · rename_i hv
        split at h
        · cases h
        · rename_i gs p hr
          cases h
          have hl : (o, o.long, some c, false) ∈ options := by
            have := option_mem o
            rw [ho, show o.takesValue = false by simpa using hv] at this
            exact this
          obtain ⟨fs, ls, h1, h2⟩ := ih hr
          refine ⟨_, _, .cons hl h1, ?_⟩
          rcases h2 with ⟨rfl, e⟩ | ⟨o', c', h3, h4, ⟨rfl, e⟩ | ⟨v, rfl, e⟩ | ⟨v, h5, h6, rfl, e⟩⟩ <;> cases e
          · exact .inl ⟨rfl, rfl⟩
          · exact .inr ⟨o', c', h3, h4, .inl ⟨rfl, rfl⟩⟩
          · exact .inr ⟨o', c', h3, h4, .inr (.inl ⟨v, rfl, rfl⟩)⟩
          · exact .inr ⟨o', c', h3, h4, .inr (.inr ⟨v, h5, h6, rfl, rfl⟩)⟩

theorem looksLikeOption_false {v : String} : looksLikeOption v = false ↔ IsValue v := by
  unfold looksLikeOption IsValue
  constructor
  · intro h c l e
    rw [e] at h
    cases h
  · intro h
    split
    · rename_i c l e; exact (h c l e).elim
    · rfl

theorem Spec.Letters.first {fs : List (Opt × String)} {c : Char} {cs : List Char} (h : Letters fs (c :: cs)) :
    c ≠ '-' := by
  cases h with
  | cons ho _ => exact short_ne_dash (option_unique ho).2.1.symm

theorem readArgument_short {l : List Char} (h : l ≠ []) (hd : l.head? ≠ some '-') :
    readArgument (String.ofList ('-' :: l)) = readShorts l := by
  unfold readArgument
  rw [String.toList_ofList]
  cases l with
  | nil => exact absurd rfl h
  | cons c l =>
    split
    · rename_i cs e; cases e; exact absurd rfl hd
    · rename_i e; cases e; rfl
    · rename_i h1; exact absurd rfl (h1 c l)

theorem readArgument_long (s : String) : readArgument ("--" ++ s) = readLong s.toList := by
  unfold readArgument
  rw [String.toList_append]
  rfl

/-! ## All arguments -/

theorem letters_head {fs : List (Opt × String)} {cs l : List Char} (h : Letters fs cs) {c : Char}
    (hc : c ≠ '-') : (cs ++ c :: l).head? ≠ some '-' := by
  cases cs with
  | nil => simpa using hc
  | cons a cs => simpa using h.first

theorem readArguments_spelled {gs : List (Opt × String)} {ws : List String} (h : Spelled gs ws) :
    readArguments none ws = some gs := by
  induction h with
  | nil => rfl
  | @flag o n s gs ws ho _ ih =>
    obtain ⟨rfl, hs, hv⟩ := option_unique ho
    rw [readArguments, readArgument_long, readLong_flag]
    simp [← hv, ih]
  | @equals o n s v gs ws ho _ ih =>
    obtain ⟨rfl, hs, hv⟩ := option_unique ho
    rw [readArguments, String.append_assoc, String.append_assoc, readArgument_long, String.toList_append,
      String.toList_append, show "=".toList = ['='] from rfl, List.singleton_append, readLong_value]
    simp [← hv, ih]
  | @next o n s v gs ws ho hv' _ ih =>
    obtain ⟨rfl, hs, hv⟩ := option_unique ho
    rw [readArguments, readArgument_long, readLong_flag]
    simp [← hv, readArguments, looksLikeOption_false.2 hv', ih]
  | @letters fs cs gs ws hl hne _ ih =>
    have hd : cs.head? ≠ some '-' := by
      cases cs with
      | nil => exact absurd rfl hne
      | cons c cs => simpa using hl.first
    have hr := readShorts_letters hl []
    rw [List.append_nil] at hr
    rw [readArguments, readArgument_short hne hd, hr]
    simp [readShorts, ih]
  | @lettersEquals fs cs o n c v gs ws hl ho _ ih =>
    obtain ⟨-, hs, hv⟩ := option_unique ho
    rw [readArguments, readArgument_short (by simp) (letters_head hl (short_ne_dash hs.symm)),
      readShorts_letters hl, readShorts, byShort_short o hs.symm]
    simp [← hv, ih]
  | @lettersJoined fs cs o n c v gs ws hl ho hne hq _ ih =>
    obtain ⟨-, hs, hv⟩ := option_unique ho
    rw [readArguments, readArgument_short (by simp) (letters_head hl (short_ne_dash hs.symm)),
      readShorts_letters hl, readShorts_joined hs.symm hv.symm hq
        (fun e => hne (by rw [← String.ofList_toList (s := v), e])), String.ofList_toList]
    simp [ih]
  | @lettersNext fs cs o n c v gs ws hl ho hv' _ ih =>
    obtain ⟨-, hs, hv⟩ := option_unique ho
    rw [readArguments, readArgument_short (by simp) (letters_head hl (short_ne_dash hs.symm)),
      readShorts_letters hl, readShorts, byShort_short o hs.symm]
    simp [← hv, readArguments, looksLikeOption_false.2 hv', ih]

theorem readArguments_some {p : Option Opt} {ws : List String} {gs : List (Opt × String)}
    (h : readArguments p ws = some gs) :
    match p with
    | none => Spelled gs ws
    | some o => ∃ v ws' gs', ws = v :: ws' ∧ IsValue v ∧ gs = (o, v) :: gs' ∧ Spelled gs' ws' := by
  induction ws generalizing p gs with
  | nil =>
    cases p with
    | none => cases h; exact .nil
    | some o => cases h
  | cons x l ih =>
    cases p with
    | some o =>
      simp only [readArguments] at h
      split at h
      · cases h
      · rename_i hx
        obtain ⟨gs', h1, rfl⟩ := Option.map_eq_some_iff.1 h
        exact ⟨x, l, gs', rfl, looksLikeOption_false.1 (by simpa using hx), rfl, ih h1⟩
    | none =>
      simp only [readArguments] at h
      split at h
      · cases h
      · rename_i g1 p hr
        obtain ⟨g2, h1, rfl⟩ := Option.map_eq_some_iff.1 h
        have h2 := ih h1
        show Spelled (g1 ++ g2) (x :: l)
        unfold readArgument at hr
        split at hr
        · rename_i cs hx
          have hx' : ∀ t : String, cs = t.toList → x = "--" ++ t := by
            intro t ht
            rw [← String.ofList_toList (s := x), hx, ht, ← String.ofList_toList (s := "--" ++ t),
              String.toList_append]
            rfl
          obtain ⟨o, ⟨hc, hv, e⟩ | ⟨hc, hv, e⟩ | ⟨v, hc, hv, e⟩⟩ := readLong_some hr <;> cases e
          · obtain ⟨v, ws', gs', rfl, h3, rfl, h4⟩ := h2
            rw [hx' _ hc]
            exact .next (hv ▸ option_mem o) h3 h4
          · rw [hx' _ hc]
            exact .flag (hv ▸ option_mem o) h2
          · rw [hx' (o.long ++ "=" ++ String.ofList v) (by
              rw [hc, String.toList_append, String.toList_append, String.toList_ofList,
                String.toList_ofList, List.append_assoc, List.singleton_append])]
            have := Spelled.equals (v := String.ofList v) (hv ▸ option_mem o) h2
            rw [String.append_assoc, String.append_assoc] at this
            rw [String.append_assoc]
            exact this
        · rename_i c cs _ hx
          have hx' : x = String.ofList ('-' :: c :: cs) := by rw [← hx, String.ofList_toList]
          obtain ⟨fs, ls, hl, h3⟩ := readShorts_some hr
          rcases h3 with ⟨rfl, e⟩ | ⟨o, c', h3, h4, ⟨hc, e⟩ | ⟨v, hc, e⟩ | ⟨v, h5, h6, hc, e⟩⟩ <;> cases e
          · rw [hx']; exact .letters hl (by simp) h2
          · obtain ⟨v, ws', gs', rfl, h5, rfl, h6⟩ := h2
            rw [hx', hc]
            exact .lettersNext hl (by have := option_mem o; rw [h3, h4] at this; exact this) h5 h6
          · rw [hx', hc, List.append_assoc, List.singleton_append]
            have := Spelled.lettersEquals (v := String.ofList v) hl
              (by have := option_mem o; rw [h3, h4] at this; exact this) h2
            rw [String.toList_ofList] at this
            exact this
          · rw [hx', hc, List.append_assoc, List.singleton_append]
            have := Spelled.lettersJoined (v := String.ofList v) hl
              (by have := option_mem o; rw [h3, h4] at this; exact this)
              (fun e => h5 (by rw [← String.toList_ofList (l := v), e]; rfl))
              (by rw [String.toList_ofList]; exact h6) h2
            rw [String.toList_ofList] at this
            exact this
        · cases hr

theorem readArguments_iff {ws : List String} {gs : List (Opt × String)} :
    readArguments none ws = some gs ↔ Spelled gs ws := ⟨fun h => readArguments_some h, readArguments_spelled⟩

/-! ## What options mean -/

theorem valuesOf_eq (gs : List (Opt × String)) (o : Opt) : valuesOf gs o = listed gs o := by
  unfold valuesOf listed
  induction gs with
  | nil => rfl
  | cons g gs ih =>
    by_cases h : g.1 = o
    · simp [h, ih]
    · simp [h, ih]

theorem listed_length (gs : List (Opt × String)) (o : Opt) :
    (listed gs o).length = (gs.filter (·.1 = o)).length := by unfold listed; simp

theorem mem_listed {gs : List (Opt × String)} {o : Opt} {v : String} : v ∈ listed gs o ↔ (o, v) ∈ gs := by
  unfold listed
  constructor
  · intro h
    obtain ⟨⟨o', v'⟩, h1, rfl⟩ := List.mem_map.1 h
    obtain ⟨h2, h3⟩ := List.mem_filter.1 h1
    simp only [decide_eq_true_eq] at h3
    subst h3
    exact h2
  · intro h
    exact List.mem_map.2 ⟨(o, v), List.mem_filter.2 ⟨h, by simp⟩, rfl⟩

theorem optionField_iff {α : Type} {parse : String → Option α} {text : α → String}
    {ok : String → Prop} (hp : ∀ s x, parse s = some x ↔ text x = s ∧ ok s)
    {gs : List (Opt × String)} {o : Opt} {x : Option α} :
    optionField parse gs o = some x ↔ (gs.filter (·.1 = o)).length ≤ 1 ∧
      (∀ v, (o, v) ∈ gs ↔ x.map text = some v) ∧ ∀ y, x = some y → ok (text y) := by
  unfold optionField
  rw [valuesOf_eq, ← listed_length]
  simp only [← mem_listed]
  generalize listed gs o = l
  match l with
  | [] =>
    constructor
    · intro h; cases h; exact ⟨by simp, by simp, fun y hy => by cases hy⟩
    · rintro ⟨-, h, -⟩
      cases x with
      | none => rfl
      | some x => exact absurd ((h (text x)).2 rfl) (by simp)
  | [v] =>
    show (parse v).map some = some x ↔ _
    constructor
    · intro h
      obtain ⟨y, h1, rfl⟩ := Option.map_eq_some_iff.1 h
      obtain ⟨rfl, h2⟩ := (hp v y).1 h1
      refine ⟨by simp, fun w => ?_, fun y hy => ?_⟩
      · simp [eq_comm]
      · cases hy; exact h2
    · rintro ⟨-, h, hk⟩
      cases x with
      | none => exact absurd ((h v).1 (by simp)) (by simp)
      | some x =>
        have := (h v).1 (by simp)
        simp only [Option.map_some, Option.some.injEq] at this
        rw [(hp v x).2 ⟨this, this ▸ hk x rfl⟩]
        rfl
  | a :: b :: l =>
    constructor
    · intro h; cases h
    · rintro ⟨h, -⟩
      simp at h

theorem flagField_iff {gs : List (Opt × String)} {o : Opt} {x : Bool} :
    flagField gs o = some x ↔ (gs.filter (·.1 = o)).length ≤ 1 ∧ (Switched gs o ↔ x = true) := by
  unfold flagField Switched
  rw [valuesOf_eq, ← listed_length]
  simp only [← mem_listed]
  generalize listed gs o = l
  match l with
  | [] => cases x <;> simp
  | [v] => cases x <;> simp
  | a :: b :: l => simp

theorem formatParse_iff (s : String) (f : Format) :
    (Format.parse s).toOption = some f ↔ formatText f = s ∧ True := by
  unfold Format.parse
  split <;> (try cases f) <;> simp_all [Except.toOption, formatText, eq_comm]

theorem describeParse_iff (s : String) (d : Describe) :
    Describe.parse s = some d ↔ describeText d = s ∧ True := by
  unfold Describe.parse
  split <;> (try cases d) <;> simp_all [describeText, eq_comm]

theorem versionParse_iff (s : String) (v : SpecVersion) :
    SpecVersion.ofString s = some v ↔ versionText v = s ∧ True := by
  unfold SpecVersion.ofString
  split <;> (try cases v) <;> simp_all [versionText, eq_comm]

theorem pathValue_iff (s x : String) : pathValue s = some x ↔ id x = s ∧ s ≠ "" := by
  unfold pathValue
  by_cases h : s = ""
  · simp [h]
  · simp [h, eq_comm]

theorem some_iff (s x : String) : some s = some x ↔ id x = s ∧ True := by simp [eq_comm]

theorem argsOf_iff {gs : List (Opt × String)} {a : Args} : argsOf gs = some a ↔ Means gs a := by
  unfold argsOf
  simp only [Option.bind_eq_bind, Option.bind_eq_some_iff, optionField_iff pathValue_iff,
    optionField_iff formatParse_iff, optionField_iff describeParse_iff, optionField_iff versionParse_iff,
    optionField_iff some_iff, flagField_iff, countField, valuesOf_eq, Option.some.injEq, Option.map_id,
    id, implies_true, and_true]
  constructor
  · rintro ⟨m, hm, f, hf, d, hd, af, haf, nd, hnd, t, ht, tf, htf, al, hal, tl, htl, fo, hfo, ls, hls,
      sv, hsv, nb, hnb, rfl⟩
    constructor
    case once =>
      intro o ho
      cases o
      case verbose => exact absurd (by decide) ho
      case quiet => exact absurd (by decide) ho
      case features => exact absurd (by decide) ho
      case licenseAcceptNamed => exact absurd (by decide) ho
      case manifestPath => exact hm.1
      case format => exact hf.1
      case describe => exact hd.1
      case allFeatures => exact haf.1
      case noDefaultFeatures => exact hnd.1
      case target => exact ht.1
      case targetInFilename => exact htf.1
      case all => exact hal.1
      case topLevel => exact htl.1
      case filenameOverride => exact hfo.1
      case licenseStrict => exact hls.1
      case specVersion => exact hsv.1
      case noBuildDeps => exact hnb.1
    case verbose => rfl
    case quiet => rfl
    case features => rfl
    case licenseAcceptNamed => rfl
    case manifestPath => exact hm.2.1
    case manifestPathGiven => intro e; exact hm.2.2 _ e rfl
    case format => exact hf.2
    case describe => exact hd.2
    case target => exact ht.2
    case filenameOverride => exact hfo.2
    case specVersion => exact hsv.2
    case allFeatures => exact haf.2
    case noDefaultFeatures => exact hnd.2
    case targetInFilename => exact htf.2
    case all => exact hal.2
    case topLevel => exact htl.2
    case licenseStrict => exact hls.2
    case noBuildDeps => exact hnb.2
  · intro h
    have ho := h.once
    refine ⟨a.manifestPath, ⟨ho _ (by decide), h.manifestPath, fun y hy e => h.manifestPathGiven (e ▸ hy)⟩,
      a.format, ⟨ho _ (by decide), h.format⟩,
      a.describe, ⟨ho _ (by decide), h.describe⟩, a.allFeatures, ⟨ho _ (by decide), h.allFeatures⟩,
      a.noDefaultFeatures, ⟨ho _ (by decide), h.noDefaultFeatures⟩, a.target, ⟨ho _ (by decide), h.target⟩,
      a.targetInFilename, ⟨ho _ (by decide), h.targetInFilename⟩, a.all, ⟨ho _ (by decide), h.all⟩,
      a.topLevel, ⟨ho _ (by decide), h.topLevel⟩, a.filenameOverride, ⟨ho _ (by decide), h.filenameOverride⟩,
      a.licenseStrict, ⟨ho _ (by decide), h.licenseStrict⟩, a.specVersion, ⟨ho _ (by decide), h.specVersion⟩,
      a.noBuildDeps, ⟨ho _ (by decide), h.noBuildDeps⟩, ?_⟩
    rw [← h.verbose, ← h.quiet, ← h.features, ← h.licenseAcceptNamed]

theorem accepted_iff {a : Args} : a.accepted = true ↔ ¬ Conflict a := by
  unfold Args.accepted Conflict
  cases a.all <;> cases a.topLevel <;> cases a.filenameOverride <;> cases a.describe <;> simp

end Cdx
