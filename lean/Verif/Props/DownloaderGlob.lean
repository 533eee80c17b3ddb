import Verif.Model.DownloaderGlob
import Verif.Props.Downloader

/-!
# C147, C148: the destination folder of the downloader
-/

namespace Sumo
namespace Downloader

/-- The states reached from a given one, in any folder. -/
def Place.Reaches (p : Place) (cfg : Config) (occurs : Task → Event → Prop) (killed : Bool) : Sys → Sys → Prop :=
  Relation.ReflTransGen (p.Step cfg occurs killed)

/-! ### Tasks -/

theorem taskStep_name (cfg : Config) (d : Disk) (t : Task) (e : Event) {u : Task} (h : (taskStep cfg d t e).2 = some u) :
    u.name = t.name := by
  unfold taskStep at h
  split at h <;> first
    | (cases h; rfl)
    | (split at h <;> first
        | (cases h; rfl)
        | (split at h <;> (cases h; try rfl))
        | cases h)
    | cases h

theorem taskStep_nodup (cfg : Config) (d : Disk) (t : Task) (e : Event) (hn : d.zips.NodupKeys) :
    (taskStep cfg d t e).1.zips.NodupKeys := by
  unfold taskStep
  split <;> try exact hn
  · exact Dict.nodupKeys_set hn _ _
  · split
    · exact Dict.nodupKeys_set hn _ _
    · exact hn
  · exact Dict.nodupKeys_pop hn _
  · split
    · exact hn
    · split <;> exact hn
  · exact Dict.nodupKeys_pop hn _

/-- A task does not touch files with another name. -/
theorem taskStep_other (cfg : Config) (d : Disk) (t : Task) (e : Event) (hn : d.zips.NodupKeys) {f : String} (hf : t.name ≠ f) :
    (taskStep cfg d t e).1.zips.get? f = d.zips.get? f := by
  have hp : ∀ g, g ≠ f → (d.zips.pop g).get? f = d.zips.get? f := fun g hg => by
    rw [get?_pop hn, if_neg (Ne.symm hg)]
  unfold taskStep
  split <;> simp only [Task.name] at hf <;> try rfl
  · exact Dict.get?_set_ne _ _ hf
  · split
    · exact Dict.get?_set_ne _ _ hf
    · rfl
  · exact hp _ hf
  · split
    · rfl
    · split <;> rfl
  · exact hp _ hf

/-! ### Folders with plain names -/

theorem Place.seen_plain {p : Place} (hm : hasMagic p.dest = false) (ho : ∀ f ∈ p.others, f.1 ≠ p.dest) (d : Disk) :
    p.seen d = [d] := by
  unfold Place.seen
  have h : ∀ f, looksInto p.dest f = decide (f = p.dest) := fun f => by
    unfold looksInto; rw [hm]; rfl
  rw [List.filter_cons, if_pos (by rw [h]; simp), List.filter_eq_nil_iff.2]
  · rfl
  · intro f hf
    rw [h]
    simpa using ho f hf

/-- **C147** (partial: destination folders without `*`, `?` and `[` in their names) The script does what the results about C75
say, whatever lies in other folders.  Missing: other names, where it is false (`C147_false`, `C147_other_folder_false`). -/
theorem C147_plain_partial {p : Place} (hm : '*' ∉ p.dest.toList ∧ '?' ∉ p.dest.toList ∧ '[' ∉ p.dest.toList)
    (ho : ∀ f ∈ p.others, f.1 ≠ p.dest) (cfg : Config) (occurs : Task → Event → Prop) (killed : Bool) (s s' : Sys) :
    p.Reaches cfg occurs killed s s' ↔ Downloader.Reaches cfg occurs killed s s' := by
  have hm' : hasMagic p.dest = false := by
    unfold hasMagic
    rw [List.any_eq_false]
    rintro c hc
    simp only [Bool.or_eq_true, decide_eq_true_eq]
    rintro ((rfl | rfl) | rfl)
    · exact hm.1 hc
    · exact hm.2.1 hc
    · exact hm.2.2 hc
  have he : ∀ d, p.existing d = existingZips d := fun d => by
    unfold Place.existing; rw [Place.seen_plain hm' ho]; simp
  have hx : ∀ d, p.extracted d = extractedZips d := fun d => by
    unfold Place.extracted; rw [Place.seen_plain hm' ho]; simp
  have hr : ∀ d, p.remaining cfg d = remainingZips cfg d := fun d => by
    unfold Place.remaining remainingZips; rw [he, hx]
  have hu : ∀ s n b, p.enterUnzip s n b = enterUnzip s n b := fun s n b => by
    unfold Place.enterUnzip enterUnzip; rw [he]
  have hd : ∀ s n, p.enterDownload cfg s n = enterDownload cfg s n := fun s n => by
    unfold Place.enterDownload enterDownload; rw [hr, hu, hu]
  have hs : ∀ s, p.mainStep cfg s = mainStep cfg s := fun s => by
    unfold Place.mainStep mainStep
    cases s.main <;> simp only [hu, hd]
  constructor
  · intro h
    induction h with
    | refl => exact Relation.ReflTransGen.refl
    | tail _ h ih =>
      refine ih.tail ?_
      cases h with
      | work d m l r t e he => exact .work d m l r t e he
      | main d m => rw [hs]; exact .main d m
      | crash s h => exact .crash _ h
  · intro h
    induction h with
    | refl => exact Relation.ReflTransGen.refl
    | tail _ h ih =>
      refine ih.tail ?_
      cases h with
      | work d m l r t e he => exact .work d m l r t e he
      | main d m => rw [← hs]; exact .main d m
      | crash s h => exact .crash _ h

example : ('*' ∉ "sumo".toList ∧ '?' ∉ "sumo".toList ∧ '[' ∉ "sumo".toList) ∧
    ∀ f ∈ [("photos", Disk.empty)], f.1 ≠ "sumo" := by decide

/-! ### Which names match themselves -/

theorem tokMatch_star {ts : List Tok} {s r : List Char} (hr : r <:+ s) (h : tokMatch ts r = true) :
    tokMatch (.star :: ts) s = true := by
  rw [tokMatch, List.any_eq_true]
  exact ⟨r, (List.mem_tails r s).2 hr, h⟩

theorem toks_cons {n : ℕ} {c : Char} (s : List Char) (h1 : c ≠ '*') (h2 : c ≠ '?') (h3 : c ≠ '[') :
    toks (n + 1) (c :: s) = .one c :: toks n s := by
  rw [toks]
  all_goals first | exact h1 | exact h2 | (intro _ h _; exact h3 h) | exact h3

/-- **C147** A name without `[` matches itself, so that the script sees the folder (and others that match). -/
theorem C147_sees_itself {dest : String} (h : '[' ∉ dest.toList) : looksInto dest dest = true := by
  have key : ∀ (s : List Char), '[' ∉ s → ∀ n, s.length ≤ n → tokMatch (toks n s) s = true := by
    intro s
    induction s with
    | nil =>
      intro _ n _
      cases n <;> simp [toks, tokMatch]
    | cons c s ih =>
      intro hb n hn
      obtain ⟨n, rfl⟩ : ∃ k, n = k + 1 := ⟨n - 1, by simp at hn; omega⟩
      have hs := ih (fun h => hb (List.mem_cons_of_mem _ h)) n (by simp at hn; omega)
      have hc : c ≠ '[' := fun h => hb (by rw [h]; exact List.mem_cons_self)
      by_cases h1 : c = '*'
      · subst h1
        rw [toks]
        exact tokMatch_star (List.suffix_cons _ _) hs
      · by_cases h2 : c = '?'
        · subst h2
          rw [toks, tokMatch, hs]
        · rw [toks_cons _ h1 h2 hc, tokMatch, hs]
          simp
  unfold looksInto fnmatch
  rw [key _ h _ le_rfl]
  by_cases hd : dest.toList.head? = some '.' <;> simp [hd]

theorem tokMatch_length {ts : List Tok} (hs : Tok.star ∉ ts) : ∀ {s : List Char}, tokMatch ts s = true → s.length = ts.length := by
  induction ts with
  | nil => intro s h; rw [tokMatch] at h; simpa using h
  | cons t ts ih =>
    have ih := @ih fun h => hs (List.mem_cons_of_mem _ h)
    have ht : t ≠ .star := fun h => hs (by rw [h]; exact List.mem_cons_self)
    intro s h
    cases s with
    | nil => cases t <;> simp [tokMatch] at h ht
    | cons c s =>
      cases t with
      | star => exact absurd rfl ht
      | any => rw [tokMatch] at h; simp [ih h]
      | one a => rw [tokMatch, Bool.and_eq_true] at h; simp [ih h.2]
      | set neg rs => rw [tokMatch, Bool.and_eq_true] at h; simp [ih h.2]

theorem toks_plain : ∀ (s : List Char), ('*' ∉ s ∧ '?' ∉ s ∧ '[' ∉ s) → ∀ (n : ℕ) (r : List Char),
    toks (n + s.length) (s ++ r) = s.map .one ++ toks n r
  | [], _, n, r => rfl
  | c :: s, h, n, r => by
    simp only [List.mem_cons, not_or] at h
    rw [List.cons_append, List.length_cons, ← Nat.add_assoc, toks_cons _ (Ne.symm h.1.1) (Ne.symm h.2.1.1) (Ne.symm h.2.2.1),
      toks_plain s ⟨h.1.2, h.2.1.2, h.2.2.2⟩ n r]
    rfl

theorem takeWhile_close : ∀ (a b : List Char), ']' ∉ a →
    (a ++ ']' :: b).takeWhile (· ≠ ']') = a ∧ (a ++ ']' :: b).dropWhile (· ≠ ']') = ']' :: b
  | [], b, _ => by simp
  | c :: a, b, h => by
    simp only [List.mem_cons, not_or] at h
    obtain ⟨h1, h2⟩ := takeWhile_close a b h.2
    have hc : decide (c ≠ ']') = true := by simpa using Ne.symm h.1
    rw [List.cons_append, List.takeWhile_cons, List.dropWhile_cons, hc]
    exact ⟨by rw [if_pos rfl, h1], by rw [if_pos rfl, h2]⟩

theorem toks_brackets {dest : String} {a inside b : List Char} (h : dest.toList = a ++ '[' :: inside ++ ']' :: b)
    (ha : '*' ∉ a ∧ '?' ∉ a ∧ '[' ∉ a) (hb : '*' ∉ b ∧ '?' ∉ b ∧ '[' ∉ b) (hi : inside ≠ []) (hi' : ']' ∉ inside)
    (hi'' : inside.head? ≠ some '!') :
    toks dest.toList.length dest.toList = a.map .one ++ .set false (ranges inside) :: b.map .one := by
  obtain ⟨i, is, rfl⟩ : ∃ i is, inside = i :: is := by
    cases inside with
    | nil => exact absurd rfl hi
    | cons i is => exact ⟨i, is, rfl⟩
  have hbr : bracket ((i :: is) ++ ']' :: b) = some (i :: is, b) := by
    have hne : i ≠ ']' := fun e => hi' (by rw [e]; exact List.mem_cons_self)
    obtain ⟨h1, h2⟩ := takeWhile_close (i :: is) b hi'
    have hmem : ']' ∈ (i :: is) ++ ']' :: b := by simp
    rw [List.cons_append] at h1 h2 hmem ⊢
    unfold bracket
    split
    · rename_i s e
      simp only [List.cons.injEq] at e
      exact absurd e.1 hne
    · rw [if_pos hmem, h1, h2]
      rfl
  have ht : toks (((i :: is) ++ ']' :: b).length + 1 + a.length) (a ++ '[' :: ((i :: is) ++ ']' :: b)) =
      a.map .one ++ .set false (ranges (i :: is)) :: b.map .one := by
    rw [toks_plain a ha]
    congr 1
    have hx : i ≠ '!' := fun e => hi'' (by rw [e]; rfl)
    rw [List.cons_append] at hbr ⊢
    rw [toks, hbr]
    · simp only
      congr 1
      have := toks_plain b hb ((is ++ ']' :: b).length + 1 - b.length) []
      have e2 : (i :: (is ++ ']' :: b)).length = (is ++ ']' :: b).length + 1 - b.length + b.length := by
        simp; omega
      rw [e2]
      simp only [List.append_nil] at this
      rw [this]
      cases (is ++ ']' :: b).length + 1 - b.length <;> simp [toks]
    · intro s e
      simp only [List.cons.injEq] at e
      exact hx e.1
  have e : dest.toList = a ++ '[' :: ((i :: is) ++ ']' :: b) := by rw [h]; simp
  have el : dest.toList.length = ((i :: is) ++ ']' :: b).length + 1 + a.length := by rw [e]; simp; omega
  rw [el, e, ht]

theorem hasMagic_brackets {dest : String} {a b : List Char} (h : dest.toList = a ++ '[' :: b) : hasMagic dest = true := by
  unfold hasMagic
  rw [List.any_eq_true]
  exact ⟨'[', by rw [h]; simp, by simp⟩

/-- **C147** A name with one pair of brackets around something, and no other special characters, does not match itself: the script
never sees the folder it works in. -/
theorem C147_brackets {dest : String} {a inside b : List Char} (h : dest.toList = a ++ '[' :: inside ++ ']' :: b)
    (ha : '*' ∉ a ∧ '?' ∉ a ∧ '[' ∉ a) (hb : '*' ∉ b ∧ '?' ∉ b ∧ '[' ∉ b) (hi : inside ≠ []) (hi' : ']' ∉ inside)
    (hi'' : inside.head? ≠ some '!') : looksInto dest dest = false := by
  unfold looksInto
  rw [if_pos (hasMagic_brackets (a := a) (b := inside ++ ']' :: b) (by rw [h]; simp))]
  have hf : fnmatch dest dest = false := by
    by_contra hc
    rw [Bool.not_eq_false] at hc
    unfold fnmatch at hc
    rw [toks_brackets h ha hb hi hi' hi''] at hc
    have := tokMatch_length (by simp) hc
    rw [h] at this
    simp at this
    have := List.length_pos_of_ne_nil hi
    omega
  rw [hf]
  rfl

theorem tokMatch_ones : ∀ (b s : List Char), tokMatch (b.map .one) s = true ↔ s = b
  | [], s => by simp [tokMatch]
  | c :: b, [] => by simp [tokMatch]
  | c :: b, d :: s => by
    rw [List.map_cons, tokMatch, Bool.and_eq_true, tokMatch_ones b s, decide_eq_true_eq, List.cons.injEq, eq_comm (a := c)]

theorem tokMatch_ones_append (ts : List Tok) : ∀ (a s : List Char),
    tokMatch (a.map .one ++ ts) s = true ↔ ∃ r, s = a ++ r ∧ tokMatch ts r = true
  | [], s => by simp
  | c :: a, [] => by simp [tokMatch]
  | c :: a, d :: s => by
    rw [List.map_cons, List.cons_append, tokMatch, Bool.and_eq_true, tokMatch_ones_append ts a s, decide_eq_true_eq]
    constructor
    · rintro ⟨rfl, r, rfl, h⟩; exact ⟨r, rfl, h⟩
    · rintro ⟨r, e, h⟩
      rw [List.cons_append, List.cons.injEq] at e
      exact ⟨e.1.symm, r, e.2, h⟩

/-- What people write in brackets: single characters and ranges, with no hyphen but those in the middle of ranges. -/
inductive Item
  | single (c : Char)
  | range (lo hi : Char)

/-- How it is written. -/
def Item.text : Item → List Char
  | .single c => [c]
  | .range lo hi => [lo, '-', hi]

/-- The character it starts with. -/
def Item.first : Item → Char
  | .single c => c
  | .range lo _ => lo

/-- The characters it stands for. -/
def Item.Has : Item → Char → Prop
  | .single c, d => d = c
  | .range lo hi, d => lo ≤ d ∧ d ≤ hi

theorem ranges_items : ∀ (items : List Item), (∀ i ∈ items, i.first ≠ '-') → ∀ c : Char,
    (ranges (items.flatMap Item.text)).any (fun x => decide (x.1 ≤ c) && decide (c ≤ x.2)) = true ↔ ∃ i ∈ items, i.Has c
  | [], _, c => by simp [ranges]
  | .range lo hi :: items, h, c => by
    have ih := ranges_items items (fun i hi => h i (List.mem_cons_of_mem _ hi)) c
    rw [List.flatMap_cons, Item.text, List.cons_append, List.cons_append, List.cons_append, List.nil_append, ranges, List.any_cons,
      Bool.or_eq_true, ih]
    simp [Item.Has]
  | .single d :: items, h, c => by
    have ih := ranges_items items (fun i hi => h i (List.mem_cons_of_mem _ hi)) c
    have e : ranges (d :: items.flatMap Item.text) = (d, d) :: ranges (items.flatMap Item.text) := by
      cases items with
      | nil => simp [ranges]
      | cons i items =>
        have hf := h i (by simp)
        obtain ⟨t, ht⟩ : ∃ t, (i :: items).flatMap Item.text = i.first :: t := by cases i <;> exact ⟨_, rfl⟩
        rw [ht]
        generalize i.first = f at hf
        rw [ranges]
        intro b s e
        simp only [List.cons.injEq] at e
        exact hf e.1
    rw [List.flatMap_cons, Item.text, List.cons_append, List.nil_append, e, List.any_cons, Bool.or_eq_true, ih]
    simp only [List.mem_cons, exists_eq_or_imp, Item.Has, Bool.and_eq_true, decide_eq_true_eq]
    exact or_congr_left ⟨fun h => Char.le_antisymm h.2 h.1, fun h => by rw [h]; exact ⟨Char.le_refl _, Char.le_refl _⟩⟩

/-- **C147** What it sees instead: the folders with one of the characters in brackets, or of the ranges in brackets, in their place. -/
theorem C147_sees_instead {dest folder : String} {a b : List Char} {items : List Item}
    (h : dest.toList = a ++ '[' :: items.flatMap Item.text ++ ']' :: b) (ha : '*' ∉ a ∧ '?' ∉ a ∧ '[' ∉ a)
    (hb : '*' ∉ b ∧ '?' ∉ b ∧ '[' ∉ b) (hi : items ≠ []) (hi' : ']' ∉ items.flatMap Item.text)
    (hi'' : (items.flatMap Item.text).head? ≠ some '!') (hy : ∀ i ∈ items, i.first ≠ '-') :
    looksInto dest folder = true ↔
      (∃ c, folder.toList = a ++ c :: b ∧ ∃ i ∈ items, i.Has c) ∧ (folder.toList.head? = some '.' → dest.toList.head? = some '.') := by
  have hne : items.flatMap Item.text ≠ [] := by
    cases items with
    | nil => exact absurd rfl hi
    | cons i items => cases i <;> simp [Item.text]
  unfold looksInto
  rw [if_pos (hasMagic_brackets (a := a) (b := items.flatMap Item.text ++ ']' :: b) (by rw [h]; simp)), Bool.and_eq_true]
  refine and_congr ?_ ?_
  · unfold fnmatch
    rw [toks_brackets h ha hb hne hi' hi'', tokMatch_ones_append]
    constructor
    · rintro ⟨r, hr, hm⟩
      cases r with
      | nil => simp [tokMatch] at hm
      | cons c r =>
        rw [tokMatch, Bool.and_eq_true, tokMatch_ones, bne_iff_ne, ne_eq, Bool.not_eq_false, ranges_items _ hy] at hm
        exact ⟨c, hm.2 ▸ hr, hm.1⟩
    · rintro ⟨c, hr, hm⟩
      refine ⟨c :: b, hr, ?_⟩
      rw [tokMatch, Bool.and_eq_true, tokMatch_ones, bne_iff_ne, ne_eq, Bool.not_eq_false, ranges_items _ hy]
      exact ⟨hm, rfl⟩
  · rw [Bool.or_eq_true, decide_eq_true_eq, decide_eq_true_eq]
    tauto

/-- Non-vacuity. -/
example : "data[a-cx]".toList = "data".toList ++ '[' :: [Item.range 'a' 'c', .single 'x'].flatMap Item.text ++ ']' :: [] := by decide +kernel

example : looksInto "data[a-cx]" "datab" = true ∧ looksInto "data[a-cx]" "datax" = true ∧ looksInto "data[a-cx]" "data-" = false := by
  decide +kernel

theorem toks_negated {dest : String} {a inside b : List Char} (h : dest.toList = a ++ '[' :: '!' :: inside ++ ']' :: b)
    (ha : '*' ∉ a ∧ '?' ∉ a ∧ '[' ∉ a) (hb : '*' ∉ b ∧ '?' ∉ b ∧ '[' ∉ b) (hi : inside ≠ []) (hi' : ']' ∉ inside) :
    toks dest.toList.length dest.toList = a.map .one ++ .set true (ranges inside) :: b.map .one := by
  obtain ⟨i, is, rfl⟩ : ∃ i is, inside = i :: is := by
    cases inside with
    | nil => exact absurd rfl hi
    | cons i is => exact ⟨i, is, rfl⟩
  have hbr : bracket ((i :: is) ++ ']' :: b) = some (i :: is, b) := by
    have hne : i ≠ ']' := fun e => hi' (by rw [e]; exact List.mem_cons_self)
    obtain ⟨h1, h2⟩ := takeWhile_close (i :: is) b hi'
    have hmem : ']' ∈ (i :: is) ++ ']' :: b := by simp
    rw [List.cons_append] at h1 h2 hmem ⊢
    unfold bracket
    split
    · rename_i s e
      simp only [List.cons.injEq] at e
      exact absurd e.1 hne
    · rw [if_pos hmem, h1, h2]
      rfl
  have ht : toks (((i :: is) ++ ']' :: b).length + 1 + 1 + a.length) (a ++ '[' :: '!' :: ((i :: is) ++ ']' :: b)) =
      a.map .one ++ .set true (ranges (i :: is)) :: b.map .one := by
    rw [toks_plain a ha]
    congr 1
    rw [toks, hbr]
    simp only
    congr 1
    have := toks_plain b hb ((is ++ ']' :: b).length + 1 + 1 - b.length) []
    have e2 : ((i :: is) ++ ']' :: b).length + 1 = (is ++ ']' :: b).length + 1 + 1 - b.length + b.length := by
      simp; omega
    rw [e2]
    simp only [List.append_nil] at this
    rw [this]
    cases (is ++ ']' :: b).length + 1 + 1 - b.length <;> simp [toks]
  have e : dest.toList = a ++ '[' :: '!' :: ((i :: is) ++ ']' :: b) := by rw [h]; simp
  have el : dest.toList.length = ((i :: is) ++ ']' :: b).length + 1 + 1 + a.length := by rw [e]; simp; omega
  rw [el, e, ht]

/-- **C147.** If the brackets begin with an exclamation mark, the folders looked into are those with any character in place of the brackets
that is none of those listed. -/
theorem C147_sees_instead_negated {dest folder : String} {a b : List Char} {items : List Item}
    (h : dest.toList = a ++ '[' :: '!' :: items.flatMap Item.text ++ ']' :: b) (ha : '*' ∉ a ∧ '?' ∉ a ∧ '[' ∉ a)
    (hb : '*' ∉ b ∧ '?' ∉ b ∧ '[' ∉ b) (hi : items ≠ []) (hi' : ']' ∉ items.flatMap Item.text) (hy : ∀ i ∈ items, i.first ≠ '-') :
    looksInto dest folder = true ↔
      (∃ c, folder.toList = a ++ c :: b ∧ ∀ i ∈ items, ¬ i.Has c) ∧ (folder.toList.head? = some '.' → dest.toList.head? = some '.') := by
  have hne : items.flatMap Item.text ≠ [] := by
    cases items with
    | nil => exact absurd rfl hi
    | cons i items => cases i <;> simp [Item.text]
  have hset : ∀ c, ((ranges (items.flatMap Item.text)).any (fun x => decide (x.1 ≤ c) && decide (c ≤ x.2)) != true) = true ↔
      ∀ i ∈ items, ¬ i.Has c := by
    intro c
    rw [bne_iff_ne, ne_eq, ranges_items _ hy]
    push Not
    rfl
  unfold looksInto
  rw [if_pos (hasMagic_brackets (a := a) (b := '!' :: items.flatMap Item.text ++ ']' :: b) (by rw [h]; simp)), Bool.and_eq_true]
  refine and_congr ?_ ?_
  · unfold fnmatch
    rw [toks_negated h ha hb hne hi', tokMatch_ones_append]
    constructor
    · rintro ⟨r, hr, hm⟩
      cases r with
      | nil => simp [tokMatch] at hm
      | cons c r =>
        rw [tokMatch, Bool.and_eq_true, tokMatch_ones, hset] at hm
        exact ⟨c, hm.2 ▸ hr, hm.1⟩
    · rintro ⟨c, hr, hm⟩
      refine ⟨c :: b, hr, ?_⟩
      rw [tokMatch, Bool.and_eq_true, tokMatch_ones, hset]
      exact ⟨hm, rfl⟩
  · rw [Bool.or_eq_true, decide_eq_true_eq, decide_eq_true_eq]
    tauto

/-- Non-vacuity. -/
example : "data[!a-cx]".toList = "data".toList ++ '[' :: '!' :: [Item.range 'a' 'c', .single 'x'].flatMap Item.text ++ ']' :: [] := by
  decide +kernel

example : looksInto "data[!a-cx]" "datab" = false ∧ looksInto "data[!a-cx]" "data1" = true := by decide +kernel

example : looksInto "data[1]" "data[1]" = false :=
  C147_brackets (a := "data".toList) (inside := ['1']) (b := []) (by decide) (by decide) (by decide) (by decide) (by decide) (by decide)

/-- What the pattern does see: the folder `data1`. -/
example : looksInto "data[1]" "data1" = true := by decide +kernel

/-! ### A folder the script does not see -/

/-- Only downloads are going on. -/
structure Blind (d0 : Disk) (s : Sys) : Prop where
  data : s.disk.data = d0.data
  markers : s.disk.markers = d0.markers
  tasks : ∀ t ∈ s.tasks, (∃ f, t = .fetch f) ∨ (∃ f r b, t = .write f r b) ∨ (∃ f, t = .cleanup f)
  main : ∀ a b, s.main = .finished a b → a = false ∧ b = true

theorem blind_reaches {cfg : Config} (hr : cfg.requested ≠ []) {p : Place} (hd : looksInto p.dest p.dest = false)
    (ho : ∀ f ∈ p.others, looksInto p.dest f.1 = false) {occurs : Task → Event → Prop} {killed : Bool} {d0 : Disk} {s : Sys}
    (h : p.Reaches cfg occurs killed ⟨d0, .idle, []⟩ s) : Blind d0 s ∧ ∀ n b, s.main ≠ .unzip n b := by
  have hseen : ∀ d, p.seen d = [] := fun d => by
    unfold Place.seen
    rw [List.filter_eq_nil_iff.2]
    · rfl
    · intro f hf
      rcases List.mem_cons.1 hf with rfl | hf
      · simpa using hd
      · simpa using ho f hf
  have he : ∀ d, p.existing d = [] := fun d => by unfold Place.existing; rw [hseen]; rfl
  have hrem : ∀ d, p.remaining cfg d = cfg.requested := fun d => by
    unfold Place.remaining Place.extracted removeExistingFiles
    rw [he, hseen]
    simp
  have enter : ∀ s n, Blind d0 s → Blind d0 (p.enterDownload cfg s n) ∧ ∀ k b, (p.enterDownload cfg s n).main ≠ .unzip k b := by
    intro s n hs
    unfold Place.enterDownload Place.enterUnzip
    rw [hrem, if_neg hr, he, if_pos rfl]
    split_ifs
    · refine ⟨⟨hs.data, hs.markers, fun t ht => ?_, by simp⟩, by simp⟩
      obtain ⟨f, -, rfl⟩ := List.mem_map.1 ht
      exact Or.inl ⟨f, rfl⟩
    · refine ⟨⟨hs.data, hs.markers, by simp, ?_⟩, by simp⟩
      rintro a b h
      simp only [Main.finished.injEq] at h
      exact ⟨h.1.symm, h.2.symm⟩
  induction h with
  | refl => exact ⟨⟨rfl, rfl, by simp, by simp⟩, by simp⟩
  | tail _ h ih =>
    obtain ⟨ih, hun⟩ := ih
    cases h with
    | crash s _ => exact ⟨⟨ih.data, ih.markers, by simp, by simp⟩, by simp⟩
    | main d m =>
      unfold Place.mainStep
      cases m with
      | idle => exact enter _ _ ih
      | download n => exact enter _ _ ih
      | unzip n b => exact absurd rfl (hun n b)
      | finished a b => exact ⟨⟨ih.data, ih.markers, by simp, by simp⟩, by simp⟩
    | work d m l r t e _ =>
      have rest : ∀ u ∈ l ++ r, (∃ f, u = .fetch f) ∨ (∃ f r b, u = .write f r b) ∨ (∃ f, u = .cleanup f) := fun u hu =>
        ih.tasks u (by
          simp only [List.mem_append, List.mem_cons] at hu ⊢
          tauto)
      have mem : ∀ {o : Option Task} {u}, u ∈ l ++ o.toList ++ r → u ∈ l ++ r ∨ o = some u := by
        intro o u hu
        simp only [List.mem_append, Option.mem_toList] at hu ⊢
        tauto
      have key : (taskStep cfg d t e).1.data = d.data ∧ (taskStep cfg d t e).1.markers = d.markers ∧
          ∀ u, (taskStep cfg d t e).2 = some u → (∃ f, u = .fetch f) ∨ (∃ f r b, u = .write f r b) ∨ (∃ f, u = .cleanup f) := by
        rcases ih.tasks t (by simp) with ⟨f, rfl⟩ | ⟨f, rs, b, rfl⟩ | ⟨f, rfl⟩
        · cases e <;> refine ⟨rfl, rfl, fun u hu => ?_⟩ <;> cases hu <;> simp
        · cases e with
          | good =>
            cases rs with
            | nil =>
              cases b
              · exact ⟨rfl, rfl, fun u hu => by cases hu⟩
              · refine ⟨rfl, rfl, fun u hu => by cases hu; simp⟩
            | cons c rs =>
              cases hz : d.zips.get? f with
              | none => rw [step_write_none hz]; exact ⟨rfl, rfl, fun u hu => by cases hu; simp⟩
              | some z => rw [step_write hz]; exact ⟨rfl, rfl, fun u hu => by cases hu; simp⟩
          | _ =>
            cases rs <;> cases b <;> exact ⟨rfl, rfl, fun u hu => by cases hu; simp⟩
        · cases e <;> refine ⟨rfl, rfl, fun u hu => ?_⟩ <;> cases hu
      refine ⟨⟨key.1.trans ih.data, key.2.1.trans ih.markers, fun u hu => ?_, ih.main⟩, hun⟩
      rcases mem hu with h | h
      · exact rest u h
      · exact key.2.2 u h

/-- All downloads of a list can succeed one after the other. -/
theorem fetch_all {cfg : Config} {p : Place} (m : Main) : ∀ (fs : List String) (d : Disk),
    ∃ d', p.Reaches cfg (FaultFree cfg) false ⟨d, m, fs.map .fetch⟩ ⟨d', m, []⟩ ∧ (∀ f ∈ fs, d'.zips.get? f = some (cfg.server f)) ∧
      (∀ f, d.zips.get? f = some (cfg.server f) → d'.zips.get? f = some (cfg.server f))
  | [], d => ⟨d, Relation.ReflTransGen.refl, by simp, fun _ h => h⟩
  | f :: fs, d => by
    obtain ⟨d', r, h1, h2⟩ := fetch_all m fs { d with zips := (d.zips.set f []).set f (cfg.server f) }
    refine ⟨d', ?_, ?_, ?_⟩
    · have s1 : p.Step cfg (FaultFree cfg) false ⟨d, m, .fetch f :: fs.map .fetch⟩
          ⟨{ d with zips := d.zips.set f [] }, m, .write f [cfg.server f] false :: fs.map .fetch⟩ := by
        have := Place.Step.work (p := p) (cfg := cfg) (occurs := FaultFree cfg) (killed := false) d m [] (fs.map .fetch) (.fetch f)
          (.response [cfg.server f] false) ⟨by simp, rfl⟩
        simpa [taskStep] using this
      have s2 : p.Step cfg (FaultFree cfg) false
          ⟨{ d with zips := d.zips.set f [] }, m, .write f [cfg.server f] false :: fs.map .fetch⟩
          ⟨{ d with zips := (d.zips.set f []).set f (cfg.server f) }, m, .write f [] false :: fs.map .fetch⟩ := by
        have := Place.Step.work (p := p) (cfg := cfg) (occurs := FaultFree cfg) (killed := false)
          { d with zips := d.zips.set f [] } m [] (fs.map .fetch) (.write f [cfg.server f] false) .good rfl
        rw [step_write (z := []) (Dict.get?_set_self _ _ _)] at this
        simpa using this
      have s3 : p.Step cfg (FaultFree cfg) false
          ⟨{ d with zips := (d.zips.set f []).set f (cfg.server f) }, m, .write f [] false :: fs.map .fetch⟩
          ⟨{ d with zips := (d.zips.set f []).set f (cfg.server f) }, m, fs.map .fetch⟩ := by
        have := Place.Step.work (p := p) (cfg := cfg) (occurs := FaultFree cfg) (killed := false)
          { d with zips := (d.zips.set f []).set f (cfg.server f) } m [] (fs.map .fetch) (.write f [] false) .good rfl
        simpa [taskStep] using this
      exact ((Relation.ReflTransGen.single s1).tail s2).tail s3 |>.trans r
    · intro g hg
      rcases List.mem_cons.1 hg with rfl | hg
      · exact h2 g (Dict.get?_set_self _ _ _)
      · exact h1 g hg
    · intro g hg
      refine h2 g ?_
      by_cases e : f = g
      · subst e; exact Dict.get?_set_self _ _ _
      · rw [Dict.get?_set_ne _ _ e, Dict.get?_set_ne _ _ e]; exact hg

/-- **C147** is false: in a folder whose name does not match itself (see `C147_brackets`), with no other folder that matches, no
run whatever extracts anything, and every run that ends says that downloading failed and that the extraction is complete.
A run in which nothing fails does come to this end, with every archive in the folder. -/
theorem C147_false {cfg : Config} (hr : cfg.requested ≠ []) {p : Place} (hd : looksInto p.dest p.dest = false)
    (ho : ∀ f ∈ p.others, looksInto p.dest f.1 = false) (d0 : Disk) :
    (∀ (occurs : Task → Event → Prop) (killed : Bool) (s : Sys), p.Reaches cfg occurs killed ⟨d0, .idle, []⟩ s →
      s.disk.data = d0.data ∧ s.disk.markers = d0.markers ∧ ∀ a b, s.main = .finished a b → a = false ∧ b = true) ∧
    ∃ s, p.Reaches cfg (FaultFree cfg) false ⟨d0, .idle, []⟩ s ∧ s.main = .finished false true ∧
      ∀ f ∈ cfg.requested, s.disk.zips.get? f = some (cfg.server f) := by
  refine ⟨fun occurs killed s h => ?_, ?_⟩
  · have := (blind_reaches hr hd ho h).1
    exact ⟨this.data, this.markers, this.main⟩
  · have hseen : ∀ d, p.seen d = [] := fun d => by
      unfold Place.seen
      rw [List.filter_eq_nil_iff.2]
      · rfl
      · intro f hf
        rcases List.mem_cons.1 hf with rfl | hf
        · simpa using hd
        · simpa using ho f hf
    have he : ∀ d, p.existing d = [] := fun d => by unfold Place.existing; rw [hseen]; rfl
    have hrem : ∀ d, p.remaining cfg d = cfg.requested := fun d => by
      unfold Place.remaining Place.extracted removeExistingFiles
      rw [he, hseen]
      simp
    have go : ∀ (n : ℕ) (d : Disk), n < 3 →
        p.enterDownload cfg ⟨d, .download n, []⟩ n = ⟨d, .download (n + 1), cfg.requested.map .fetch⟩ := by
      intro n d hn
      unfold Place.enterDownload
      rw [hrem, if_neg hr, if_pos (show n < maxRetries from hn)]
    have r0 : p.Step cfg (FaultFree cfg) false ⟨d0, .idle, []⟩ ⟨d0, .download 1, cfg.requested.map .fetch⟩ := by
      have := Place.Step.main (p := p) (cfg := cfg) (occurs := FaultFree cfg) (killed := false) d0 .idle
      unfold Place.mainStep Place.enterDownload at this
      rw [hrem, if_neg hr, if_pos (by decide)] at this
      exact this
    obtain ⟨d1, r1, -, -⟩ := fetch_all (p := p) (cfg := cfg) (.download 1) cfg.requested d0
    have m1 := Place.Step.main (p := p) (cfg := cfg) (occurs := FaultFree cfg) (killed := false) d1 (.download 1)
    rw [show p.mainStep cfg ⟨d1, .download 1, []⟩ = _ from go 1 d1 (by decide)] at m1
    obtain ⟨d2, r2, -, -⟩ := fetch_all (p := p) (cfg := cfg) (.download 2) cfg.requested d1
    have m2 := Place.Step.main (p := p) (cfg := cfg) (occurs := FaultFree cfg) (killed := false) d2 (.download 2)
    rw [show p.mainStep cfg ⟨d2, .download 2, []⟩ = _ from go 2 d2 (by decide)] at m2
    obtain ⟨d3, r3, h3, -⟩ := fetch_all (p := p) (cfg := cfg) (.download 3) cfg.requested d2
    have m3 := Place.Step.main (p := p) (cfg := cfg) (occurs := FaultFree cfg) (killed := false) d3 (.download 3)
    have e3 : p.mainStep cfg ⟨d3, .download 3, []⟩ = ⟨d3, .finished false true, []⟩ := by
      unfold Place.mainStep Place.enterDownload Place.enterUnzip
      dsimp only
      rw [hrem, if_neg hr, if_neg (by decide), he, if_pos rfl]
    rw [e3] at m3
    refine ⟨_, ((((((Relation.ReflTransGen.single r0).trans r1).tail m1).trans r2).tail m2).trans r3).tail m3, rfl, h3⟩

example := C147_false (cfg := exConfig) (by decide) (p := ⟨"data[1]", [("photos", Disk.empty)]⟩)
  (C147_brackets (a := "data".toList) (inside := ['1']) (b := []) (by decide) (by decide) (by decide) (by decide) (by decide) (by decide))
  (by decide +kernel) Disk.empty

/-! ### A folder the script takes others for -/

/-- **C147** is false: if the name of the destination matches another folder, an archive that lies in (or was extracted in) that
folder is never downloaded into the destination; if it lies there, no run says that the extraction is complete. -/
theorem C147_other_folder_false {cfg : Config} {p : Place} {f : String} {o : String × Disk} (ho : o ∈ p.others)
    (hl : looksInto p.dest o.1 = true) (hf : f ∈ existingZips o.2 ++ extractedZips o.2) {occurs : Task → Event → Prop}
    {killed : Bool} {s : Sys} (h : p.Reaches cfg occurs killed Sys.initial s) :
    s.disk.zips.get? f = none ∧ (f ∈ existingZips o.2 → ∀ a, s.main ≠ .finished a true) := by
  have hseen : ∀ d, o.2 ∈ p.seen d := fun d =>
    List.mem_map.2 ⟨o, List.mem_filter.2 ⟨List.mem_cons_of_mem _ ho, hl⟩, rfl⟩
  have hx : f ∈ existingZips o.2 → ∀ d, p.existing d ≠ [] := fun hf d e => by
    have : f ∈ p.existing d := List.mem_flatMap.2 ⟨_, hseen d, hf⟩
    rw [e] at this
    simp at this
  have hrem : ∀ d, f ∉ p.remaining cfg d := by
    intro d hm
    unfold Place.remaining removeExistingFiles at hm
    have := (List.mem_filter.1 hm).2
    simp only [List.mem_append, not_or, decide_eq_true_eq] at this
    rcases List.mem_append.1 hf with hf | hf
    · exact this.1 (List.mem_flatMap.2 ⟨_, hseen d, hf⟩)
    · exact this.2 (List.mem_flatMap.2 ⟨_, hseen d, hf⟩)
  suffices key : s.disk.zips.NodupKeys ∧ s.disk.zips.get? f = none ∧ (∀ t ∈ s.tasks, t.name = f → t = .unzip f) ∧
      (f ∈ existingZips o.2 → ∀ a, s.main ≠ .finished a true) from ⟨key.2.1, key.2.2.2⟩
  have unz : ∀ s n b, (s : Sys).disk.zips.NodupKeys → s.disk.zips.get? f = none →
      (p.enterUnzip s n b).disk.zips.NodupKeys ∧ (p.enterUnzip s n b).disk.zips.get? f = none ∧
      (∀ t ∈ (p.enterUnzip s n b).tasks, t.name = f → t = .unzip f) ∧
      (f ∈ existingZips o.2 → ∀ a, (p.enterUnzip s n b).main ≠ .finished a true) := by
    intro s n b hn hz
    unfold Place.enterUnzip
    split_ifs with h1
    · exact ⟨hn, hz, by simp, fun h => absurd h1 (hx h _)⟩
    · refine ⟨hn, hz, fun t ht e => ?_, by simp⟩
      obtain ⟨g, -, rfl⟩ := List.mem_map.1 ht
      rw [show g = f from e]
    · exact ⟨hn, hz, by simp, by simp⟩
  have dwn : ∀ s n, (s : Sys).disk.zips.NodupKeys → s.disk.zips.get? f = none →
      (p.enterDownload cfg s n).disk.zips.NodupKeys ∧ (p.enterDownload cfg s n).disk.zips.get? f = none ∧
      (∀ t ∈ (p.enterDownload cfg s n).tasks, t.name = f → t = .unzip f) ∧
      (f ∈ existingZips o.2 → ∀ a, (p.enterDownload cfg s n).main ≠ .finished a true) := by
    intro s n hn hz
    unfold Place.enterDownload
    split_ifs with h1
    · exact unz _ _ _ hn hz
    · refine ⟨hn, hz, fun t ht e => ?_, by simp⟩
      obtain ⟨g, hg, rfl⟩ := List.mem_map.1 ht
      rw [show g = f from e] at hg
      exact absurd hg (hrem _)
    · exact unz _ _ _ hn hz
  induction h with
  | refl => exact ⟨by simp [Sys.initial, Disk.empty, Dict.NodupKeys, Dict.keys], rfl, by simp [Sys.initial], by simp [Sys.initial]⟩
  | tail _ h ih =>
    obtain ⟨hn, hz, ht, hm⟩ := ih
    cases h with
    | crash s _ => exact ⟨hn, hz, by simp, by simp⟩
    | main d m =>
      unfold Place.mainStep
      cases m with
      | idle => exact dwn _ _ hn hz
      | download n => exact dwn _ _ hn hz
      | unzip n b => exact unz _ _ _ hn hz
      | finished a b => exact ⟨hn, hz, by simp, by simp⟩
    | work d m l r t e _ =>
      refine ⟨taskStep_nodup _ _ _ _ hn, ?_, fun u hu hu' => ?_, hm⟩
      · by_cases hft : t.name = f
        · rw [ht t (by simp) hft]
          cases e with
          | good => rw [step_unzip_none hz]; exact hz
          | _ => exact hz
        · rw [taskStep_other _ _ _ _ hn hft]
          exact hz
      · simp only [List.mem_append, Option.mem_toList] at hu
        rcases hu with (hu | hu) | hu
        · exact ht u (by simp [hu]) hu'
        · have hnm := taskStep_name _ _ _ _ hu
          have hte := ht t (by simp) (hnm.symm.trans hu')
          rw [hte] at hu
          cases e with
          | good => rw [step_unzip_none hz] at hu; cases hu
          | _ => cases hu
        · exact ht u (by simp [hu]) hu'

example : (∀ {s}, Place.Reaches ⟨"sumo*", [("sumo-old", ⟨[("a.zip", [2, 7, 7])], [], []⟩)]⟩ exConfig (FaultFree exConfig) false
    Sys.initial s → s.disk.zips.get? "a.zip" = none) ∧ "a.zip" ∈ exConfig.requested :=
  ⟨fun h => (C147_other_folder_false (f := "a.zip") (o := ("sumo-old", ⟨[("a.zip", [2, 7, 7])], [], []⟩)) (by simp)
    (by decide +kernel) (by decide +kernel) h).1, by decide⟩

/-! ### C148: files the script did not make -/

/-- **C148** (partial: files that are neither requested archives nor have names that end in `.zip`.)  Whatever lies in the
destination folder before, and whatever happens, such a file is never touched.  Missing: other archives, which are extracted and
deleted (`C148_false`). -/
theorem C148_kept_partial {cfg : Config} {occurs : Task → Event → Prop} {killed : Bool} {d0 : Disk} (hn : d0.zips.NodupKeys) {s : Sys}
    (h : Reaches cfg occurs killed ⟨d0, .idle, []⟩ s) {f : String} (hf : f ∉ cfg.requested)
    (hz : ¬ ".zip".toList <:+ f.toList) : s.disk.zips.get? f = d0.zips.get? f := by
  have hg : globMatches ".zip" f = false := by
    unfold globMatches
    rw [decide_eq_false hz]
    rfl
  suffices key : s.disk.zips.NodupKeys ∧ s.disk.zips.get? f = d0.zips.get? f ∧ ∀ t ∈ s.tasks, t.name ≠ f from key.2.1
  have unz : ∀ s n b, (s : Sys).disk.zips.NodupKeys → s.disk.zips.get? f = d0.zips.get? f →
      (enterUnzip s n b).disk.zips.NodupKeys ∧ (enterUnzip s n b).disk.zips.get? f = d0.zips.get? f ∧
      ∀ t ∈ (enterUnzip s n b).tasks, t.name ≠ f := by
    intro s n b hn he
    unfold enterUnzip
    split_ifs
    · exact ⟨hn, he, by simp⟩
    · refine ⟨hn, he, fun t ht e => ?_⟩
      obtain ⟨g, hgm, rfl⟩ := List.mem_map.1 ht
      rw [show g = f from e] at hgm
      have := (List.mem_filter.1 hgm).2
      rw [hg] at this
      cases this
    · exact ⟨hn, he, by simp⟩
  have dwn : ∀ s n, (s : Sys).disk.zips.NodupKeys → s.disk.zips.get? f = d0.zips.get? f →
      (enterDownload cfg s n).disk.zips.NodupKeys ∧ (enterDownload cfg s n).disk.zips.get? f = d0.zips.get? f ∧
      ∀ t ∈ (enterDownload cfg s n).tasks, t.name ≠ f := by
    intro s n hn he
    unfold enterDownload
    split_ifs
    · exact unz _ _ _ hn he
    · refine ⟨hn, he, fun t ht e => ?_⟩
      obtain ⟨g, hgm, rfl⟩ := List.mem_map.1 ht
      rw [show g = f from e] at hgm
      exact hf (List.mem_filter.1 hgm).1
    · exact unz _ _ _ hn he
  induction h with
  | refl => exact ⟨hn, rfl, by simp⟩
  | tail _ h ih =>
    obtain ⟨hn, he, ht⟩ := ih
    cases h with
    | crash s _ => exact ⟨hn, he, by simp⟩
    | main d m =>
      unfold mainStep
      cases m with
      | idle => exact dwn _ _ hn he
      | download n => exact dwn _ _ hn he
      | unzip n b => exact unz _ _ _ hn he
      | finished a b => exact ⟨hn, he, by simp⟩
    | work d m l r t e _ =>
      have htf := ht t (by simp)
      refine ⟨taskStep_nodup _ _ _ _ hn, (taskStep_other _ _ _ _ hn htf).trans he, fun u hu => ?_⟩
      simp only [List.mem_append, Option.mem_toList] at hu
      rcases hu with (hu | hu) | hu
      · exact ht u (by simp [hu])
      · rw [taskStep_name _ _ _ _ hu]; exact htf
      · exact ht u (by simp [hu])

example : "notes.txt" ∉ exConfig.requested ∧ ¬ ".zip".toList <:+ "notes.txt".toList := by decide

/-- **C148** is false of archives the user keeps in the folder: after every run that says "Extraction complete." there is no
`*.zip` file in it (hidden ones excepted), whoever put it there; -/
theorem C148_false {cfg : Config} {occurs : Task → Event → Prop} {killed : Bool} {d0 : Disk} {s : Sys}
    (h : Reaches cfg occurs killed ⟨d0, .idle, []⟩ s) {a : Bool} (hs : s.main = .finished a true) {f : String}
    (hz : ".zip".toList <:+ f.toList) (hd : f.toList.head? ≠ some '.') : s.disk.zips.get? f = none := by
  have hg : globMatches ".zip" f = true := by
    unfold globMatches
    rw [decide_eq_true hz, decide_eq_true hd]
    rfl
  suffices key : (∃ a, s.main = .finished a true) → existingZips s.disk = [] ∧ s.tasks = [] by
    rw [Dict.get?_eq_none_iff]
    intro hm
    have : f ∈ existingZips s.disk := List.mem_filter.2 ⟨hm, hg⟩
    rw [(key ⟨a, hs⟩).1] at this
    simp at this
  clear hs
  have unz : ∀ s n b, (∃ a, (enterUnzip s n b).main = .finished a true) →
      existingZips (enterUnzip s n b).disk = [] ∧ (enterUnzip s n b).tasks = [] := by
    intro s n b
    unfold enterUnzip
    split_ifs with h
    · exact fun _ => ⟨h, rfl⟩
    · rintro ⟨a, h⟩; simp at h
    · rintro ⟨a, h⟩; simp at h
  have dwn : ∀ s n, (∃ a, (enterDownload cfg s n).main = .finished a true) →
      existingZips (enterDownload cfg s n).disk = [] ∧ (enterDownload cfg s n).tasks = [] := by
    intro s n
    unfold enterDownload
    split_ifs
    · exact unz _ _ _
    · rintro ⟨a, h⟩; simp at h
    · exact unz _ _ _
  induction h with
  | refl => rintro ⟨a, h⟩; simp at h
  | tail _ h ih =>
    cases h with
    | crash s _ => rintro ⟨a, h⟩; simp at h
    | main d m =>
      unfold mainStep
      cases m with
      | idle => exact dwn _ _
      | download n => exact dwn _ _
      | unzip n b => exact unz _ _ _
      | finished a b => rintro ⟨a, h⟩; simp at h
    | work d m l r t e _ =>
      intro hf
      have := (ih hf).2
      simp at this

/-- and such runs exist: with one archive of the user's own in the folder and nothing left to download, a run without failures
unpacks it and deletes it. -/
theorem C148_false_run {cfg : Config} {f : String} {z : Bytes} {members : List (String × Bytes)} {markers : List String}
    (hz : ".zip".toList <:+ f.toList) (hd : f.toList.head? ≠ some '.')
    (hu : cfg.unpack z = some (members.map fun m => (m.1, some m.2)))
    (hr : remainingZips cfg ⟨[(f, z)], markers, []⟩ = []) :
    ∃ s, Reaches cfg (FaultFree cfg) false ⟨⟨[(f, z)], markers, []⟩, .idle, []⟩ s ∧ s.main = .finished true true ∧
      s.disk.zips.get? f = none ∧ ∀ m ∈ members, (s.disk.data.get? m.1).isSome := by
  have hg : globMatches ".zip" f = true := by
    unfold globMatches
    rw [decide_eq_true hz, decide_eq_true hd]
    rfl
  have he : existingZips ⟨[(f, z)], markers, []⟩ = [f] := by
    unfold existingZips
    simp [Dict.keys, hg]
  have m0 : Step cfg (FaultFree cfg) false ⟨⟨[(f, z)], markers, []⟩, .idle, []⟩
      ⟨⟨[(f, z)], markers, []⟩, .unzip 1 true, [.unzip f]⟩ := by
    have := Step.main (cfg := cfg) (occurs := FaultFree cfg) (killed := false) ⟨[(f, z)], markers, []⟩ .idle
    unfold mainStep enterDownload enterUnzip at this
    dsimp only at this
    rw [hr, if_pos rfl, he, if_neg (by simp), if_pos (by decide)] at this
    exact this
  have m1 : Step cfg (FaultFree cfg) false ⟨⟨[(f, z)], markers, []⟩, .unzip 1 true, [.unzip f]⟩
      ⟨⟨[(f, z)], markers, []⟩, .unzip 1 true, [.extract f (members.map fun m => (m.1, some m.2))]⟩ := by
    have := Step.work (cfg := cfg) (occurs := FaultFree cfg) (killed := false) ⟨[(f, z)], markers, []⟩ (.unzip 1 true) [] []
      (.unzip f) .good rfl
    rw [step_unzip (z := z) (by simp [Dict.get?]) hu] at this
    simpa using this
  have ext : ∀ (ms : List (String × Bytes)) (data : Dict String Bytes), ∃ data',
      Reaches cfg (FaultFree cfg) false ⟨⟨[(f, z)], markers, data⟩, .unzip 1 true, [.extract f (ms.map fun m => (m.1, some m.2))]⟩
        ⟨⟨[(f, z)], markers, data'⟩, .unzip 1 true, [.extract f []]⟩ ∧
      (∀ k, (data.get? k).isSome → (data'.get? k).isSome) ∧ ∀ m ∈ ms, (data'.get? m.1).isSome := by
    intro ms
    induction ms with
    | nil => exact fun data => ⟨data, Relation.ReflTransGen.refl, fun _ h => h, by simp⟩
    | cons m ms ih =>
      intro data
      obtain ⟨data', r, h1, h2⟩ := ih (data.set m.1 m.2)
      have st : Step cfg (FaultFree cfg) false
          ⟨⟨[(f, z)], markers, data⟩, .unzip 1 true, [.extract f ((m :: ms).map fun m => (m.1, some m.2))]⟩
          ⟨⟨[(f, z)], markers, data.set m.1 m.2⟩, .unzip 1 true, [.extract f (ms.map fun m => (m.1, some m.2))]⟩ := by
        have := Step.work (cfg := cfg) (occurs := FaultFree cfg) (killed := false) ⟨[(f, z)], markers, data⟩ (.unzip 1 true) [] []
          (.extract f ((m :: ms).map fun m => (m.1, some m.2))) .good rfl
        simpa [taskStep] using this
      refine ⟨data', (Relation.ReflTransGen.single st).trans r, fun k hk => h1 k ?_, fun k hk => ?_⟩
      · rw [Dict.get?_set]
        split_ifs
        · rfl
        · exact hk
      · rcases List.mem_cons.1 hk with rfl | hk
        · exact h1 _ (by simp)
        · exact h2 k hk
  obtain ⟨data', r, -, hdata⟩ := ext members []
  have m2 : Step cfg (FaultFree cfg) false ⟨⟨[(f, z)], markers, data'⟩, .unzip 1 true, [.extract f []]⟩
      ⟨⟨[(f, z)], markers, data'⟩, .unzip 1 true, [.remove f]⟩ := by
    have := Step.work (cfg := cfg) (occurs := FaultFree cfg) (killed := false) ⟨[(f, z)], markers, data'⟩ (.unzip 1 true) [] []
      (.extract f []) .good rfl
    simpa [taskStep] using this
  have hpop : Dict.pop ([(f, z)] : Dict String Bytes) f = [] := by simp [Dict.pop]
  have m3 : Step cfg (FaultFree cfg) false ⟨⟨[(f, z)], markers, data'⟩, .unzip 1 true, [.remove f]⟩
      ⟨⟨[], markers, data'⟩, .unzip 1 true, [.mark f]⟩ := by
    have := Step.work (cfg := cfg) (occurs := FaultFree cfg) (killed := false) ⟨[(f, z)], markers, data'⟩ (.unzip 1 true) [] []
      (.remove f) .good rfl
    simpa [taskStep, hpop] using this
  have m4 : Step cfg (FaultFree cfg) false ⟨⟨[], markers, data'⟩, .unzip 1 true, [.mark f]⟩
      ⟨⟨[], markerOf f :: markers, data'⟩, .unzip 1 true, []⟩ := by
    have := Step.work (cfg := cfg) (occurs := FaultFree cfg) (killed := false) ⟨[], markers, data'⟩ (.unzip 1 true) [] []
      (.mark f) .good rfl
    simpa [taskStep] using this
  have m5 : Step cfg (FaultFree cfg) false ⟨⟨[], markerOf f :: markers, data'⟩, .unzip 1 true, []⟩
      ⟨⟨[], markerOf f :: markers, data'⟩, .finished true true, []⟩ := by
    have := Step.main (cfg := cfg) (occurs := FaultFree cfg) (killed := false) ⟨[], markerOf f :: markers, data'⟩ (.unzip 1 true)
    unfold mainStep enterUnzip at this
    dsimp only at this
    rw [if_pos (by simp [existingZips, Dict.keys])] at this
    exact this
  exact ⟨_, (((((Relation.ReflTransGen.single m0).tail m1).trans r).tail m2).tail m3).tail m4 |>.tail m5, rfl, rfl, hdata⟩

example := C148_false_run (cfg := exConfig) (f := "photos.zip") (z := [1, 5]) (members := [("room/b.glb", [5])])
  (markers := ["a.cache", "b.cache"]) (by decide) (by decide) (by decide) (by decide +kernel)

end Downloader
end Sumo
