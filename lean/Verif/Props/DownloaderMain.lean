import Verif.Model.DownloaderMain
import Mathlib.Tactic.Linarith
import Mathlib.Tactic.Ring
import Mathlib.Algebra.Order.BigOperators.Group.List
import Mathlib.Tactic.NormNum
import Mathlib.Tactic.FieldSimp
import Mathlib.Tactic.Positivity

/-! # Properties of the main program of the downloader (C168, C169, C170) -/

namespace Sumo
namespace DownloaderMain

/-! ### What is raised in a stage -/

/-- An exception reaches the loop of a stage: the outcomes it gets to see are those of at most `n` attempts, and none after one that fails or
after which nothing is left; then that of the last look. -/
def LoopRaises (s : Stage) : ℕ → List Attempt → Exc → Prop
  | n + 1, a :: as, e =>
    a.pool = .error e ∨ (a.pool = .ok () ∧ (a.work = .error e ∨ (a.work = .ok () ∧ (a.count = .error e ∨
      ∃ k, a.count = .ok (k + 1) ∧ LoopRaises s n as e))))
  | _, _, e => s.last = .error e

/-- An exception reaches a stage: at the first look, or in the loop if that found something to do. -/
def Raises (s : Stage) (e : Exc) : Prop := s.first = .error e ∨ ((∃ k, s.first = .ok (k + 1)) ∧ LoopRaises s maxRetries s.attempts e)

theorem loop_raises (s : Stage) : ∀ (n : ℕ) (as : List Attempt) (b : Bool) (e : Exc),
    (loop s n as b).2.2 = some e ↔ LoopRaises s n as e
  | n + 1, a :: as, b, e => by
    rw [loop, LoopRaises]
    cases h1 : a.pool with
    | error x => simp
    | ok x =>
      cases h2 : a.work with
      | error y => simp
      | ok y =>
        cases h3 : a.count with
        | error z => simp
        | ok k =>
          cases k with
          | zero => simp
          | succ k => simp [loop_raises s n as true e]
  | 0, as, b, e => by
    rw [loop, LoopRaises]
    · cases h : s.last with
      | error x => simp
      | ok k => cases k <;> simp
    · simp
    · simp
  | n + 1, [], b, e => by
    rw [loop, LoopRaises]
    · cases h : s.last with
      | error x => simp
      | ok k => cases k <;> simp
    · simp
    · simp

theorem body_raises (s : Stage) (e : Exc) : (body s).2.2 = some e ↔ Raises s e := by
  unfold body Raises
  cases h : s.first with
  | error x => simp
  | ok k =>
    cases k with
    | zero => simp
    | succ k =>
      change (loop s maxRetries s.attempts false).2.2 = some e ↔ _
      rw [loop_raises]
      simp

/-- `pool` is bound when the body ends. -/
def Bound (s : Stage) : Prop := (∃ k, s.first = .ok (k + 1)) ∧ ∃ a, s.attempts.head? = some a ∧ a.pool = .ok ()

theorem loop_bound (s : Stage) : ∀ (n : ℕ) (as : List Attempt), (loop s n as true).2.1 = true
  | n + 1, a :: as => by
    rw [loop]
    repeat' (first | split | rfl | exact loop_bound s n as)
  | 0, as => by rw [loop]; (repeat' (first | split | rfl)); all_goals simp
  | n + 1, [] => by rw [loop]; (repeat' (first | split | rfl)); all_goals simp

theorem body_bound (s : Stage) : (body s).2.1 = true ↔ Bound s := by
  unfold body Bound
  cases h : s.first with
  | error x => simp
  | ok k =>
    cases k with
    | zero => simp
    | succ k =>
      change (loop s maxRetries s.attempts false).2.1 = true ↔ _
      cases ha : s.attempts with
      | nil =>
        unfold maxRetries
        rw [loop]
        · cases s.last with
          | error x => simp
          | ok k => cases k <;> simp
        · simp
      | cons a as =>
        unfold maxRetries
        rw [loop]
        cases h1 : a.pool with
        | error x => simp [h1]
        | ok x =>
          simp only [List.head?_cons, Option.some.injEq, exists_eq_left', h1, and_true]
          constructor
          · intro _; exact ⟨k, rfl⟩
          · intro _
            repeat' (first | split | rfl | exact loop_bound s _ as)

theorem stage_eq (s : Stage) : stage s = match (body s).2.2 with
    | none => ((body s).1, none)
    | some .interrupt => ((body s).1, some (if (body s).2.1 then .interrupt else .exception unbound))
    | some (.exception m) => ((body s).1 ++ [.error m], if (body s).2.1 then none else some (.exception unbound)) := by
  unfold stage
  obtain ⟨log, b, e⟩ := body s
  rcases e with _ | _ | _ <;> rfl

/-! ### C168 -/

/-- **C168.** Every exception of a stage is logged. -/
theorem C168_logged {s : Stage} {m : String} (h : Raises s (.exception m)) : Line.error m ∈ (stage s).1 := by
  rw [stage_eq, (body_raises s _).2 h]
  simp

/-- **C168.** Where the pool exists, an exception ends the stage but not the program, and an interrupt is passed on. -/
theorem C168_stage_partial {s : Stage} (hb : Bound s) :
    (stage s).2 = none ∨ ((stage s).2 = some .interrupt ∧ Raises s .interrupt) := by
  rw [stage_eq, (body_bound s).2 hb]
  cases h : (body s).2.2 with
  | none => exact .inl rfl
  | some e =>
    cases e with
    | interrupt => exact .inr ⟨rfl, (body_raises s _).1 h⟩
    | exception m => exact .inl rfl

/-- **C168.** An interrupt where the pool exists, in the download or in the unzipping, ends the program with the message that it was
interrupted; after one in the download nothing is unzipped. -/
theorem C168_interrupt_partial {r : Run} (hp : ∀ x ∈ r.preparation, x = .ok ()) :
    (Bound r.download → Raises r.download .interrupt → (main r).1 = (stage r.download).1 ++ [.interrupted]) ∧
      ((stage r.download).2 = none → Bound r.unzip → Raises r.unzip .interrupt →
        (main r).1 = (stage r.download).1 ++ (stage r.unzip).1 ++ [.interrupted]) := by
  have hf : firstError r.preparation = none := by
    generalize r.preparation = l at hp
    induction l with
    | nil => rfl
    | cons x l ih =>
      rw [hp x (by simp), firstError]
      exact ih fun y hy => hp y (List.mem_cons_of_mem _ hy)
  have hs : ∀ s, Bound s → Raises s .interrupt → (stage s).2 = some .interrupt := by
    intro s hb h
    rw [stage_eq, (body_raises s _).2 h, (body_bound s).2 hb]
    rfl
  constructor
  · intro hb h
    have := hs _ hb h
    unfold main mainBody
    rw [hf]
    obtain ⟨log, e, hd⟩ : ∃ log e, stage r.download = (log, e) := ⟨_, _, rfl⟩
    rw [hd] at this
    simp only at this
    subst this
    rw [hd]
  · intro h0 hb h
    have := hs _ hb h
    unfold main mainBody
    rw [hf]
    obtain ⟨log, e, hd⟩ : ∃ log e, stage r.download = (log, e) := ⟨_, _, rfl⟩
    rw [hd] at h0
    simp only at h0
    subst h0
    obtain ⟨log', e', hu⟩ : ∃ log e, stage r.unzip = (log, e) := ⟨_, _, rfl⟩
    rw [hu] at this
    simp only at this
    subst this
    rw [hd, hu]

/-- **C168.** Every exception before the stages ends the program with its message, and nothing is downloaded. -/
theorem C168_preparation {r : Run} {l k : List (Except Exc Unit)} {m : String} (h : r.preparation = l ++ .error (.exception m) :: k)
    (hl : ∀ x ∈ l, x = .ok ()) : main r = ([.terminated m], 0) := by
  have hf : firstError r.preparation = some (.exception m) := by
    rw [h]
    clear h
    induction l with
    | nil => rfl
    | cons x l ih =>
      rw [hl x (by simp), List.cons_append, firstError]
      exact ih fun y hy => hl y (List.mem_cons_of_mem _ hy)
  unfold main mainBody
  rw [hf]
  rfl

/-- **C168.** False of the code before the pool exists: the handlers use it.  An exception there (the first look at the folder, or starting
the processes) ends the program before anything is unzipped, with a message about a variable; an interrupt is not recognised as one. -/
theorem C168_false {r : Run} (hp : ∀ x ∈ r.preparation, x = .ok ()) (hb : ¬ Bound r.download) :
    (∀ m, Raises r.download (.exception m) → (main r).1 = (stage r.download).1 ++ [.terminated unbound]) ∧
      (Raises r.download .interrupt → (main r).1 = (stage r.download).1 ++ [.terminated unbound] ∧ Line.interrupted ∉ (main r).1) := by
  have hf : firstError r.preparation = none := by
    generalize r.preparation = l at hp
    induction l with
    | nil => rfl
    | cons x l ih =>
      rw [hp x (by simp), firstError]
      exact ih fun y hy => hp y (List.mem_cons_of_mem _ hy)
  have hb' : (body r.download).2.1 = false := by
    rw [← Bool.not_eq_true, body_bound]
    exact hb
  have hm : (stage r.download).2 = some (.exception unbound) → (main r).1 = (stage r.download).1 ++ [.terminated unbound] := by
    intro this
    unfold main mainBody
    rw [hf]
    obtain ⟨log, e, hd⟩ : ∃ log e, stage r.download = (log, e) := ⟨_, _, rfl⟩
    rw [hd] at this
    simp only at this
    subst this
    rw [hd]
  have hlog : Line.interrupted ∉ (body r.download).1 := by
    have hl : ∀ (s : Stage) (n : ℕ) (as : List Attempt) (b : Bool), Line.interrupted ∉ (loop s n as b).1 := by
      intro s n
      induction n with
      | zero => intro as b; rw [loop]; (repeat' (first | split | simp)); all_goals simp
      | succ n ih =>
        intro as b
        cases as with
        | nil => rw [loop]; (repeat' (first | split | simp)); all_goals simp
        | cons a as =>
          rw [loop]
          repeat' (first | split | exact ih _ _ | simp)
    unfold body
    split
    · simp
    · simp
    · exact hl _ _ _ _
  refine ⟨fun m h => hm ?_, fun h => ?_⟩
  · rw [stage_eq, (body_raises _ _).2 h, hb']
    rfl
  · have e : (stage r.download).2 = some (.exception unbound) := by
      rw [stage_eq, (body_raises _ _).2 h, hb']
      rfl
    refine ⟨hm e, ?_⟩
    rw [hm e, stage_eq, (body_raises _ _).2 h]
    simp [hlog]

/-- An attempt in which everything works. -/
def fine : Attempt := ⟨.ok (), .ok (), .ok 0⟩

/-- Non-vacuity: the pool exists and the interrupt comes while waiting for it. -/
example : Bound ⟨"Download", .ok 3, [⟨.ok (), .error .interrupt, .ok 0⟩], .ok 0⟩ ∧
    Raises ⟨"Download", .ok 3, [⟨.ok (), .error .interrupt, .ok 0⟩], .ok 0⟩ .interrupt :=
  ⟨⟨⟨2, rfl⟩, _, rfl, rfl⟩, .inr ⟨⟨2, rfl⟩, .inr ⟨rfl, .inl rfl⟩⟩⟩

/-- Non-vacuity: the processes cannot be started. -/
example : ¬ Bound ⟨"Download", .ok 3, [⟨.error (.exception "Cannot allocate memory"), .ok (), .ok 0⟩], .ok 0⟩ ∧
    Raises ⟨"Download", .ok 3, [⟨.error (.exception "Cannot allocate memory"), .ok (), .ok 0⟩], .ok 0⟩ (.exception "Cannot allocate memory") :=
  ⟨by rintro ⟨-, a, h, g⟩; simp at h; subst h; simp at g, .inr ⟨⟨2, rfl⟩, .inl rfl⟩⟩

/-- The whole program: the first exception ends the download, and unzipping goes on. -/
example : main ⟨[.ok (), .ok ()], ⟨"Download", .ok 3, [⟨.ok (), .ok (), .error (.exception "disk")⟩], .ok 0⟩, ⟨"Extraction", .ok 2, [fine], .ok 0⟩⟩ =
    ([.error "disk", .complete "Extraction"], 0) := by decide

/-! ### C169 -/

/-- **C169.** Without exceptions the log says how each stage ended: complete if nothing is left at the beginning or after an attempt, unable
to if something is left after three. -/
theorem C169_log_partial {s : Stage} (h : ∀ e, ¬ Raises s e) :
    (stage s).2 = none ∧ ((stage s).1 = [.complete s.name] ∨ (∃ k, s.last = .ok (k + 1) ∧ (stage s).1 = [.unable s.name (k + 1)]) ∨
      (s.last = .ok 0 ∧ (stage s).1 = [])) := by
  have hn : (body s).2.2 = none := by
    by_contra hc
    obtain ⟨e, he⟩ := Option.ne_none_iff_exists'.1 hc
    exact h e ((body_raises s e).1 he)
  have hl : ∀ (n : ℕ) (as : List Attempt) (b : Bool), (loop s n as b).2.2 = none →
      (loop s n as b).1 = [.complete s.name] ∨ (∃ k, s.last = .ok (k + 1) ∧ (loop s n as b).1 = [.unable s.name (k + 1)]) ∨
        (s.last = .ok 0 ∧ (loop s n as b).1 = []) := by
    have fin : ∀ (n : ℕ) (as : List Attempt) (b : Bool), (∀ m a as', n = m + 1 → as = a :: as' → False) → (loop s n as b).2.2 = none →
        (loop s n as b).1 = [.complete s.name] ∨ (∃ k, s.last = .ok (k + 1) ∧ (loop s n as b).1 = [.unable s.name (k + 1)]) ∨
        (s.last = .ok 0 ∧ (loop s n as b).1 = []) := by
      intro n as b hx
      rw [loop.eq_2 _ _ _ _ hx]
      cases hk : s.last with
      | error e => simp
      | ok k => cases k <;> simp
    intro n
    induction n with
    | zero => intro as b; exact fin 0 as b (by simp)
    | succ n ih =>
      intro as b
      cases as with
      | nil => exact fin (n + 1) [] b (by simp)
      | cons a as =>
        rw [loop]
        cases a.pool with
        | error e => simp
        | ok x =>
          cases a.work with
          | error e => simp
          | ok y =>
            cases a.count with
            | error e => simp
            | ok k =>
              cases k with
              | zero => simp
              | succ k => exact ih as true
  have hb : (body s).1 = [.complete s.name] ∨ (∃ k, s.last = .ok (k + 1) ∧ (body s).1 = [.unable s.name (k + 1)]) ∨
      (s.last = .ok 0 ∧ (body s).1 = []) := by
    unfold body at hn ⊢
    cases hf : s.first with
    | error e => rw [hf] at hn; simp at hn
    | ok k =>
      rw [hf] at hn
      cases k with
      | zero => simp
      | succ k => exact hl _ _ _ hn
  rw [stage_eq, hn]
  exact ⟨rfl, hb⟩

/-- An attempt without exceptions after which something is left. -/
def LeavesSome (a : Attempt) : Prop := a.pool = .ok () ∧ a.work = .ok () ∧ ∃ k, a.count = .ok (k + 1)

/-- An attempt without exceptions after which nothing is left. -/
def LeavesNone (a : Attempt) : Prop := a.pool = .ok () ∧ a.work = .ok () ∧ a.count = .ok 0

theorem loop_skip (s : Stage) (n : ℕ) : ∀ (l : List Attempt) (as : List Attempt) (b : Bool), (∀ a ∈ l, LeavesSome a) →
    loop s (n + l.length) (l ++ as) b = loop s n as (b || !l.isEmpty)
  | [], as, b, _ => by simp
  | a :: l, as, b, h => by
    obtain ⟨h1, h2, k, h3⟩ := h a (by simp)
    have e : n + (a :: l).length = (n + l.length) + 1 := by simp [Nat.add_assoc]
    rw [e, List.cons_append, loop, h1, h2, h3]
    simp only
    rw [loop_skip s n l as true fun a ha => h a (List.mem_cons_of_mem _ ha)]
    simp

/-- **C169.** A stage with something to do makes up to three attempts: it is complete as soon as one of them leaves nothing, and goes on after
the first and the second that leave something. -/
theorem C169_retries_partial {s : Stage} {k : ℕ} (hf : s.first = .ok (k + 1)) {l : List Attempt} (hl : ∀ a ∈ l, LeavesSome a)
    (h3 : l.length < 3) {a : Attempt} (ha : LeavesNone a) {as : List Attempt} (hs : s.attempts = l ++ a :: as) :
    stage s = ([.complete s.name], none) := by
  obtain ⟨n, hn⟩ : ∃ n, maxRetries = n + 1 + l.length := ⟨2 - l.length, by unfold maxRetries; omega⟩
  obtain ⟨h1, h2, h4⟩ := ha
  have : body s = ([.complete s.name], true, none) := by
    unfold body
    rw [hf]
    simp only
    rw [hn, hs, loop_skip s (n + 1) l _ _ hl, loop, h1, h2, h4]
  unfold stage
  rw [this]

/-- **C169.** After three attempts that leave something there is no fourth: what the last look finds is what the log says is left. -/
theorem C169_gives_up_partial {s : Stage} {k : ℕ} (hf : s.first = .ok (k + 1)) {l : List Attempt} (hl : ∀ a ∈ l, LeavesSome a)
    (h3 : l.length = 3) {as : List Attempt} (hs : s.attempts = l ++ as) {m : ℕ} (hm : s.last = .ok (m + 1)) :
    stage s = ([.unable s.name (m + 1)], none) := by
  have hn : maxRetries = 0 + l.length := by unfold maxRetries; omega
  have : body s = ([.unable s.name (m + 1)], true, none) := by
    have hb : (false || !l.isEmpty) = true := by cases l <;> simp_all
    unfold body
    rw [hf]
    simp only
    rw [hn, hs, loop_skip s 0 l _ _ hl, hb, loop.eq_2 _ _ _ _ (by simp), hm]
  unfold stage
  rw [this]

/-- Non-vacuity: an attempt of each kind. -/
example : LeavesSome ⟨.ok (), .ok (), .ok 2⟩ ∧ LeavesNone ⟨.ok (), .ok (), .ok 0⟩ := ⟨⟨rfl, rfl, 1, rfl⟩, rfl, rfl, rfl⟩

/-- Non-vacuity: a fourth attempt, which would succeed, is not made. -/
example : stage ⟨"Download", .ok 2, [⟨.ok (), .ok (), .ok 2⟩, ⟨.ok (), .ok (), .ok 2⟩, ⟨.ok (), .ok (), .ok 1⟩, fine], .ok 1⟩ =
    ([.unable "Download" 1], none) := by decide

/-- **C169.** False of the code: the exit status is 0 whatever happened; also when nothing was downloaded. -/
theorem C169_false : (∀ r : Run, (main r).2 = 0) ∧
    ∃ r : Run, (main r).1 = [.terminated "Cannot read config file from the server."] ∧ (main r).2 = 0 := by
  have h : ∀ r : Run, (main r).2 = 0 := by
    intro r
    unfold main
    split <;> rfl
  exact ⟨h, ⟨[.ok (), .error (.exception "Cannot read config file from the server.")], ⟨"Download", .ok 0, [], .ok 0⟩,
    ⟨"Extraction", .ok 0, [], .ok 0⟩⟩, rfl, rfl⟩

/-- **C169.** False of the code: three attempts may leave files which are there at the last look, and then a stage says nothing at all. -/
theorem C169_silent_false : ∃ s : Stage, (∀ e, ¬ Raises s e) ∧ (stage s).1 = [] := by
  refine ⟨⟨"Download", .ok 1, [⟨.ok (), .ok (), .ok 1⟩, ⟨.ok (), .ok (), .ok 1⟩, ⟨.ok (), .ok (), .ok 1⟩], .ok 0⟩, fun e h => ?_, by decide⟩
  rw [← body_raises] at h
  simp [body, maxRetries, loop] at h

/-- Non-vacuity of `C169_log_partial`: complete after the second attempt. -/
example : ∀ e, ¬ Raises ⟨"Download", .ok 5, [⟨.ok (), .ok (), .ok 2⟩, fine], .ok 0⟩ e := by
  intro e h
  rw [← body_raises] at h
  simp [body, maxRetries, loop, fine] at h

/-! ### C170 -/

/-- One gigabyte, as the script counts. -/
def gb : ℕ := 1024 ^ 3

theorem spaceCheck_iff (free remaining : ℕ) : spaceCheck free remaining = .ok () ↔ (remaining * 6 + 10) * gb ≤ free := by
  unfold spaceCheck gb
  have e : (free : ℚ) / 1024 / 1024 / 1024 < remaining * 6 + 10 ↔ ¬ (remaining * 6 + 10) * 1024 ^ 3 ≤ free := by
    rw [not_le, div_div, div_div, div_lt_iff₀ (by norm_num)]
    have : ((free : ℚ) < (remaining * 6 + 10) * (1024 * (1024 * 1024))) ↔ ((free : ℕ) : ℚ) < (((remaining * 6 + 10) * 1024 ^ 3 : ℕ) : ℚ) := by
      push_cast
      norm_num
    rw [this, Nat.cast_lt]
  split
  · next h => simpa using e.1 h
  · next h => simpa using not_not.1 (mt e.2 h)

/-- **C170.** If the check passes, archives of at most six gigabytes each and ten more gigabytes fit on the disk; and the check passes
whenever there is that much. -/
theorem C170_partial {free : ℕ} {archives : List ℕ} (h6 : ∀ a ∈ archives, a ≤ 6 * gb) {extracted : ℕ} (hx : extracted ≤ 10 * gb)
    (h : spaceCheck free archives.length = .ok ()) : archives.sum + extracted ≤ free := by
  rw [spaceCheck_iff] at h
  have hs := List.sum_le_card_nsmul archives (6 * gb) h6
  rw [nsmul_eq_mul, Nat.cast_id] at hs
  have : (archives.length * 6 + 10) * gb = archives.length * (6 * gb) + 10 * gb := by ring
  omega

/-- **C170.** The check refuses only if there is less than that. -/
theorem C170_refuses (free remaining : ℕ) : spaceCheck free remaining ≠ .ok () ↔ free < remaining * (6 * gb) + 10 * gb := by
  rw [ne_eq, spaceCheck_iff, not_le]
  have : (remaining * 6 + 10) * gb = remaining * (6 * gb) + 10 * gb := by ring
  rw [this]

/-- **C170.** False of the code: with archives of the average size the comment gives (6.5 GB), from 21 archives on the check may pass although
not even the archives fit. -/
theorem C170_false {n : ℕ} (hn : 21 ≤ n) :
    ∃ free : ℕ, spaceCheck free n = .ok () ∧ free < (List.replicate n (13 * gb / 2)).sum := by
  refine ⟨(n * 6 + 10) * gb, (spaceCheck_iff _ _).2 le_rfl, ?_⟩
  rw [List.sum_replicate, nsmul_eq_mul, Nat.cast_id]
  have h : 13 * gb / 2 = 6 * gb + gb / 2 := by decide
  have hg : 2 * (gb / 2) = gb := by decide
  have hp : 0 < gb / 2 := by decide
  rw [h]
  nlinarith

/-- Non-vacuity. -/
example : spaceCheck (28 * gb) 3 = .ok () ∧ ∀ a ∈ [6 * gb, 5 * gb, 1], a ≤ 6 * gb := ⟨(spaceCheck_iff _ _).2 (by decide), by decide⟩

end DownloaderMain
end Sumo
