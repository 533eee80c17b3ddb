import Verif.Model.MeasureTime
import Mathlib.Data.List.Induction
import Mathlib.Data.Fintype.Basic
import Mathlib.Tactic.Linarith

/-! # Properties of the timing decorator (C162) -/

namespace Sumo
namespace Timing

/-- **C162.** A timed function returns, or raises, what the function does when collection is off. -/
theorem C162_result {α ε β : Type} (name : String) (f : Fn α ε β) (a : α) (w : Runtime) :
    (measureTime name f a w).1 = (f a { w with gc := false }).1 := rfl

/-- **C162.** If the function leaves the collector as it found it, so does the timed function, whether it returns or raises, and whether the
collector was enabled or not. -/
theorem C162_gc {α ε β : Type} (name : String) (f : Fn α ε β) (a : α) (w : Runtime) (hf : ∀ v, (f a v).2.gc = v.gc) :
    (measureTime name f a w).2.gc = w.gc := by
  have := hf { w with gc := false }
  simp only [measureTime]
  cases h : w.gc
  · simp only [Bool.false_eq_true, if_false]
    rw [h] at *
    exact this
  · simp

/-- **C162.** So timed functions may call timed functions, to any depth: here a function that runs timed functions one after the other until
one raises. -/
theorem C162_nested {α ε β : Type} (name : String) (fs : List (String × Fn α ε β)) (a : α)
    (hf : ∀ f ∈ fs, ∀ v, (f.2 a v).2.gc = v.gc) (start : β) (w : Runtime) :
    (measureTime name (fun a w => fs.foldl (fun r f => match r with
      | (.ok _, w) => measureTime f.1 f.2 a w
      | (.error e, w) => (.error e, w)) ((.ok start : Except ε β), w)) a w).2.gc = w.gc := by
  apply C162_gc
  intro v
  have key : ∀ (fs : List (String × Fn α ε β)), (∀ f ∈ fs, ∀ v, (f.2 a v).2.gc = v.gc) → ∀ r : Except ε β × Runtime,
      (fs.foldl (fun r f => match r with
        | (.ok _, w) => measureTime f.1 f.2 a w
        | (.error e, w) => (.error e, w)) r).2.gc = r.2.gc := by
    intro fs
    induction fs with
    | nil => intro _ r; rfl
    | cons f fs ih =>
      intro h r
      rw [List.foldl_cons, ih fun g hg => h g (by simp [hg])]
      obtain ⟨r, w⟩ := r
      cases r with
      | error e => rfl
      | ok b => exact C162_gc f.1 f.2 a w (h f (by simp))
  exact key fs hf _

/-- **C162.** After everything the function printed, one line with the name and the time the call took is printed, also when it raises;
the time is not negative if the clock does not go back. -/
theorem C162_printed {α ε β : Type} (name : String) (f : Fn α ε β) (a : α) (w : Runtime) :
    (measureTime name f a w).2.out =
        (f a { w with gc := false }).2.out ++ [(name, (measureTime name f a w).2.clock - w.clock)] ∧
      (w.clock ≤ (f a { w with gc := false }).2.clock → 0 ≤ (measureTime name f a w).2.clock - w.clock) := by
  have hc : (measureTime name f a w).2.clock = (f a { w with gc := false }).2.clock := by
    simp only [measureTime]; split <;> rfl
  constructor
  · rw [hc]; simp only [measureTime]; split <;> rfl
  · intro h; rw [hc]; linarith

/-- Non-vacuity: a function that takes two seconds and raises, with the collector on. -/
example : measureTime "f" (fun (x : ℕ) w => ((.error (x + 1) : Except ℕ ℕ), { w with clock := w.clock + 2 })) 3 ⟨true, 5, []⟩ =
    (.error 4, ⟨true, 7, [("f", 2)]⟩) := by
  simp only [measureTime]; norm_num

/-- **C162.** False of the code: a function that turns the collector off on purpose finds it on again. -/
theorem C162_false : ∃ (f : Fn Unit String Unit) (w : Runtime),
    (f () w).2.gc = false ∧ (measureTime "f" f () w).2.gc = true :=
  ⟨fun _ w => (.ok (), { w with gc := false }), ⟨true, 0, []⟩, rfl, rfl⟩

/-- **C162.** False of the code: a `KeyboardInterrupt` can leave the collector off for good. It does exactly when it arrives between
`gc.disable()` and `try`, or in `finally` before `gc.enable()`. -/
theorem C162_interrupt {α ε β : Type} (name : String) (f : Fn α ε β) (interrupt : ε) (l : Line) (a : α) (w : Runtime)
    (hf : ∀ v, (f a v).2.gc = v.gc) :
    (interrupted name f interrupt l a w).1 = .error interrupt ∧
      ((interrupted name f interrupt l a w).2.gc = w.gc ↔ (w.gc = true → l ≠ .start ∧ l ≠ .elapsed ∧ l ≠ .restore)) := by
  have h0 := hf { w with gc := false }
  have h1 := C162_gc name f a w hf
  have h2 := C162_gc (ε := ε) (β := β) name (fun _ w => (.error interrupt, w)) a w fun _ => rfl
  refine ⟨by cases l <;> rfl, ?_⟩
  cases hw : w.gc <;> cases l <;> simp_all [interrupted]

/-- Such an interrupt: the collector was on and stays off. -/
example : (interrupted "f" (fun (x : ℕ) w => ((.ok x : Except String ℕ), w)) "KeyboardInterrupt" .start 3 ⟨true, 5, []⟩) =
    (.error "KeyboardInterrupt", ⟨false, 5, []⟩) := rfl

/-! ### Threads -/

section
variable {ι : Type} [DecidableEq ι]

/-- All threads are before the call. -/
def before (gc : Bool) : Threads ι := ⟨gc, fun _ => .ready⟩

/-- **C162.** If the collector is off, it is off all the time, under every schedule of any number of threads. -/
theorem C162_threads_off (schedule : List ι) : ((before false).run schedule).gc = false := by
  have key : ∀ (l : List ι) (s : Threads ι), s.gc = false → (∀ i, s.phase i ≠ .seen true ∧ s.phase i ≠ .running true) →
      (s.run l).gc = false := by
    intro l
    induction l with
    | nil => intro s h _; exact h
    | cons i l ih =>
      intro s hg hp
      apply ih
      · have := hp i
        unfold Threads.step
        split <;> simp_all
      · intro j
        have hi := hp i
        have hj := hp j
        unfold Threads.step
        split
        · simp only [Function.update_apply]; split <;> simp_all
        · simp only [Function.update_apply]; split <;> simp_all
        · simp only [Function.update_apply]; split <;> simp_all
        · exact hj
  exact key schedule _ rfl fun _ => by simp [before]

/-- **C162.** If no other thread runs between `gc.isenabled()` and `gc.disable()` of a thread, then under every schedule of any number of
threads the collector is as before as soon as no call is running. -/
theorem C162_threads_partial (gc : Bool) (schedule : List ι)
    (hs : ∀ (k : ℕ) (hk : k < schedule.length) (j : ι) (b : Bool),
      ((before gc).run (schedule.take k)).phase j = .seen b → schedule[k] = j)
    (hd : ∀ i, ((before gc).run schedule).phase i = .ready ∨ ((before gc).run schedule).phase i = .done) :
    ((before gc).run schedule).gc = gc := by
  cases gc with
  | false => exact C162_threads_off schedule
  | true =>
    -- the collector is on, or some running thread has seen it on
    have key : ∀ p r, schedule = p ++ r → (((before true).run p).gc = true ∧ ∀ j, ((before true).run p).phase j ≠ .seen false) ∨
        (∃ i, ((before true).run p).phase i = .running true) := by
      intro p
      induction p using List.reverseRecOn with
      | nil => intro _ _; left; exact ⟨rfl, fun j => by simp [Threads.run, before]⟩
      | append_singleton p i ih =>
        intro r h
        have h' : schedule = p ++ i :: r := by rw [h]; simp
        have hs' : ∀ j b, ((before true).run p).phase j = .seen b → i = j := by
          intro j b hj
          have := hs p.length (by rw [h']; simp) j b (by simpa [h'] using hj)
          simpa [h'] using this
        have hr : (before true).run (p ++ [i]) = ((before true).run p).step i := by simp [Threads.run]
        rw [hr]
        have ih := ih _ h'
        generalize (before true).run p = s at ih hs'
        unfold Threads.step
        rcases hphase : s.phase i with _ | b | b | _
        · rcases ih with ⟨hg, hn⟩ | ⟨k, hk⟩
          · left
            refine ⟨hg, fun j => ?_⟩
            simp only [Function.update_apply]
            split
            · rw [hg]; simp
            · exact hn j
          · right
            refine ⟨k, ?_⟩
            have : k ≠ i := by rintro rfl; rw [hphase] at hk; cases hk
            simp [this, hk]
        · right
          rcases ih with ⟨hg, hn⟩ | ⟨k, hk⟩
          · refine ⟨i, ?_⟩
            cases b with
            | false => exact absurd hphase (hn i)
            | true => simp
          · refine ⟨k, ?_⟩
            have : k ≠ i := by rintro rfl; rw [hphase] at hk; cases hk
            simp [this, hk]
        · cases b with
          | true =>
            left
            refine ⟨by simp, fun j => ?_⟩
            simp only [Function.update_apply]
            split
            · simp
            · intro hj
              have := hs' j false hj
              subst this
              rw [hphase] at hj; cases hj
          | false =>
            rcases ih with ⟨hg, hn⟩ | ⟨k, hk⟩
            · left
              refine ⟨by simpa using hg, fun j => ?_⟩
              simp only [Function.update_apply]
              split
              · simp
              · exact hn j
            · right
              refine ⟨k, ?_⟩
              have : k ≠ i := by rintro rfl; rw [hphase] at hk; cases hk
              simp [this, hk]
        · exact ih
    rcases key schedule [] (by simp) with ⟨h, _⟩ | ⟨i, hi⟩
    · exact h
    · rcases hd i with h | h <;> rw [h] at hi <;> cases hi

/-- **C162.** False of the code: two threads that time functions at the same time can leave the collector off for good. The first sees it on
and turns it off; the second sees it off; the first turns it on and is done; the second turns it off and, having seen it off, leaves it. -/
theorem C162_threads_false : ∃ schedule : List Bool,
    (∀ i, ((before true).run schedule).phase i = .done) ∧ ((before true).run schedule).gc = false :=
  ⟨[false, false, true, false, true, true], by decide, by decide⟩

/-- Non-vacuity of `C162_threads_partial`: overlapping calls. -/
example : (∀ (k : ℕ) (hk : k < [false, false, true, true, false, true].length) (j b : Bool),
      ((before true).run ([false, false, true, true, false, true].take k)).phase j = .seen b →
        [false, false, true, true, false, true][k] = j) ∧
    (∀ i, ((before true).run [false, false, true, true, false, true]).phase i = .done) ∧
    ((before true).run [false, false, true, true, false, true]).gc = true := ⟨by decide, by decide, by decide⟩

end

end Timing
end Sumo
