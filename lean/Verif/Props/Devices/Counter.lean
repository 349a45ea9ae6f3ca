import Verif.Model.Devices.Counter

/-!
# The asynchronous counter under every schedule: C75, C79
-/

namespace Lrvm.Counter

namespace Spec

/-- The thread still runs. -/
def Thread.Alive (th : Thread) : Prop := th.pc ≠ .finished

/-- The number of increments since the last reset returned (all of the history if there was none), whichever thread does
them. Newest event first. -/
def ticksSinceReset : List Event → Nat
  | [] => 0
  | .resetReturned :: _ => 0
  | .tick _ :: older => ticksSinceReset older + 1
  | _ :: older => ticksSinceReset older

/-- The number of 10 ms sleeps that ended since the last reset returned. Newest event first. -/
def sleepsSinceReset : List Event → Nat
  | [] => 0
  | .resetReturned :: _ => 0
  | .slept _ :: older => sleepsSinceReset older + 1
  | _ :: older => sleepsSinceReset older

end Spec

open Spec

/-- How many sleeps of the current second a thread has done. -/
def At.sleeps : At → Nat
  | .sleeping k => k - 1
  | .checking k => k
  | .adding => 99
  | .finished => 0

def At.Ok : At → Prop
  | .sleeping k => 1 ≤ k ∧ k < 100
  | .checking k => 1 ≤ k ∧ k < 100
  | _ => True

/-- The thread is the one the owner knows. -/
structure Current (s : St) (hist : List Event) (th : Thread) : Prop where
  counter : th.counter = s.counter
  flag : th.flag = s.mustStop
  value : s.counters[s.counter]? = some (BitVec.ofNat 32 (ticksSinceReset hist))
  ok : th.pc.Ok

def AllDone (ts : List Thread) : Prop := ∀ th ∈ ts, th.pc = .finished

/-- The invariant, by the owner's position. -/
inductive Inv (s : St) (hist : List Event) : Prop
  /-- No thread runs. -/
  | quiet (h1 : s.countingThread = none) (h2 : s.owner = .idle ∨ s.owner = .newCounter)
      (h3 : AllDone s.threads) (h4 : s.counters[s.counter]? = some (BitVec.ofNat 32 (ticksSinceReset hist)))
      (h5 : s.mustStop < s.flags.length)
  | newFlag (h1 : s.countingThread = none) (h2 : s.owner = .newFlag) (h3 : AllDone s.threads)
      (h4 : s.counters[s.counter]? = some 0)
  | spawning (h1 : s.countingThread = none) (h2 : s.owner = .spawning) (h3 : AllDone s.threads)
      (h4 : s.counters[s.counter]? = some 0) (h5 : s.flags[s.mustStop]? = some false)
  /-- The newest thread runs and has not been told to stop. -/
  | running (th : Thread) (old : List Thread) (h0 : s.threads = th :: old)
      (h1 : (s.owner = .idle ∧ s.countingThread = some old.length) ∨
        s.countingThread = none ∧ ∃ a, s.owner = .storing old.length a)
      (h2 : AllDone old) (h3 : Current s hist th) (h4 : s.flags[s.mustStop]? = some false) (h5 : Thread.Alive th)
      (h6 : sleepsSinceReset hist = 99 * ticksSinceReset hist + th.pc.sleeps)
  /-- The newest thread has been told to stop, and the owner waits for it. -/
  | stopping (th : Thread) (old : List Thread) (a : After) (h0 : s.threads = th :: old) (h1 : s.countingThread = none)
      (h2 : s.owner = .joining old.length a) (h3 : AllDone old) (h4 : Current s hist th)
      (h5 : s.flags[s.mustStop]? = some true)

theorem only_alive {th x : Thread} {old new old' : List Thread} (h : th :: old = new ++ x :: old') (hd : AllDone old)
    (hx : x.pc ≠ .finished) : new = [] ∧ x = th ∧ old' = old := by
  cases new with
  | nil => cases h; exact ⟨rfl, rfl, rfl⟩
  | cons n new =>
    rw [List.cons_append] at h
    injection h with h1 h2
    exact absurd (hd x (by rw [h2]; exact List.mem_append_right _ List.mem_cons_self)) hx

theorem none_alive {x : Thread} {ts new old' : List Thread} (h : ts = new ++ x :: old') (hd : AllDone ts)
    (hx : x.pc ≠ .finished) : False :=
  hx (hd x (by rw [h]; exact List.mem_append_right _ List.mem_cons_self))

theorem last_thread (th : Thread) (old : List Thread) : (th :: old).reverse[old.length]? = some th := by
  rw [List.reverse_cons, List.getElem?_append_right (by simp)]; simp

/-- What the threads' steps do when all the threads are over: nothing. -/
theorem Inv.step {s s' : St} {hist : List Event} {e : Event} (hi : Inv s hist) (h : Step s e s') : Inv s' (e :: hist) := by
  cases hi with
  | quiet h1 h2 h3 h4 h5 =>
    cases h with
    | read ho hw => exact .quiet h1 h2 h3 h4 h5
    | write ho => exact .quiet h1 h2 h3 h4 h5
    | stopNone ho hn => exact .quiet h1 h2 h3 h4 h5
    | stop ho hn => rw [h1] at hn; cases hn
    | resetNone ho hn => exact .quiet h1 (.inr rfl) h3 h4 h5
    | reset ho hn => rw [h1] at hn; cases hn
    | store ho => rcases h2 with h2 | h2 <;> rw [h2] at ho <;> cases ho
    | join ho => rcases h2 with h2 | h2 <;> rw [h2] at ho <;> cases ho
    | newCounter ho =>
      refine .newFlag h1 rfl h3 ?_
      show (s.counters ++ [0])[s.counters.length]? = _
      simp
    | newFlag ho => rcases h2 with h2 | h2 <;> rw [h2] at ho <;> cases ho
    | spawn ho => rcases h2 with h2 | h2 <;> rw [h2] at ho <;> cases ho
    | slept ht => exact (none_alive ht h3 (by simp)).elim
    | exit ht _ => exact (none_alive ht h3 (by simp)).elim
    | goOn ht _ => exact (none_alive ht h3 (by simp)).elim
    | add ht _ => exact (none_alive ht h3 (by simp)).elim
  | newFlag h1 h2 h3 h4 =>
    cases h with
    | newFlag ho =>
      refine .spawning h1 rfl h3 h4 ?_
      show (s.flags ++ [false])[s.flags.length]? = _
      simp
    | slept ht => exact (none_alive ht h3 (by simp)).elim
    | exit ht _ => exact (none_alive ht h3 (by simp)).elim
    | goOn ht _ => exact (none_alive ht h3 (by simp)).elim
    | add ht _ => exact (none_alive ht h3 (by simp)).elim
    | read ho => rw [h2] at ho; cases ho
    | write ho => rw [h2] at ho; cases ho
    | stopNone ho => rw [h2] at ho; cases ho
    | stop ho => rw [h2] at ho; cases ho
    | resetNone ho => rw [h2] at ho; cases ho
    | reset ho => rw [h2] at ho; cases ho
    | store ho => rw [h2] at ho; cases ho
    | join ho => rw [h2] at ho; cases ho
    | newCounter ho => rw [h2] at ho; cases ho
    | spawn ho => rw [h2] at ho; cases ho
  | spawning h1 h2 h3 h4 h5 =>
    cases h with
    | spawn ho =>
      exact .running ⟨s.counter, s.mustStop, .sleeping 1⟩ s.threads rfl (.inl ⟨rfl, rfl⟩) h3
        ⟨rfl, rfl, h4, ⟨Nat.le_refl _, (by decide : 1 < 100)⟩⟩ h5 (by unfold Thread.Alive; simp) rfl
    | slept ht => exact (none_alive ht h3 (by simp)).elim
    | exit ht _ => exact (none_alive ht h3 (by simp)).elim
    | goOn ht _ => exact (none_alive ht h3 (by simp)).elim
    | add ht _ => exact (none_alive ht h3 (by simp)).elim
    | read ho => rw [h2] at ho; cases ho
    | write ho => rw [h2] at ho; cases ho
    | stopNone ho => rw [h2] at ho; cases ho
    | stop ho => rw [h2] at ho; cases ho
    | resetNone ho => rw [h2] at ho; cases ho
    | reset ho => rw [h2] at ho; cases ho
    | store ho => rw [h2] at ho; cases ho
    | join ho => rw [h2] at ho; cases ho
    | newCounter ho => rw [h2] at ho; cases ho
    | newFlag ho => rw [h2] at ho; cases ho
  | running th old h0 h1 h2 h3 h4 h5 h6 =>
    cases h with
    | read ho hw => exact .running th old h0 h1 h2 ⟨h3.counter, h3.flag, h3.value, h3.ok⟩ h4 h5 h6
    | write ho => exact .running th old h0 h1 h2 ⟨h3.counter, h3.flag, h3.value, h3.ok⟩ h4 h5 h6
    | stopNone ho hn => exact .running th old h0 h1 h2 ⟨h3.counter, h3.flag, h3.value, h3.ok⟩ h4 h5 h6
    | @stop t ho hn =>
      have : t = old.length := by
        rcases h1 with ⟨_, h1⟩ | ⟨h1, _⟩ <;> rw [hn] at h1 <;> cases h1; rfl
      subst this
      exact .running th old h0 (.inr ⟨rfl, _, rfl⟩) h2 ⟨h3.counter, h3.flag, h3.value, h3.ok⟩ h4 h5 h6
    | resetNone ho hn =>
      rcases h1 with ⟨_, h1⟩ | ⟨_, a, h1⟩
      · rw [hn] at h1; cases h1
      · rw [ho] at h1; cases h1
    | @reset t ho hn =>
      have : t = old.length := by
        rcases h1 with ⟨_, h1⟩ | ⟨h1, _⟩ <;> rw [hn] at h1 <;> cases h1; rfl
      subst this
      exact .running th old h0 (.inr ⟨rfl, _, rfl⟩) h2 ⟨h3.counter, h3.flag, h3.value, h3.ok⟩ h4 h5 h6
    | @store t a ho =>
      rcases h1 with ⟨h1, _⟩ | ⟨h1, a', h1'⟩
      · rw [ho] at h1; cases h1
      · rw [ho] at h1'
        cases h1'
        refine .stopping th old a h0 h1 rfl h2 ⟨h3.counter, h3.flag, h3.value, h3.ok⟩ ?_
        show (s.flags.set s.mustStop true)[s.mustStop]? = _
        exact List.getElem?_set_self (by rw [List.getElem?_eq_some_iff] at h4; exact h4.1)
    | join ho => rcases h1 with ⟨h1, _⟩ | ⟨_, _, h1⟩ <;> rw [ho] at h1 <;> cases h1
    | newCounter ho => rcases h1 with ⟨h1, _⟩ | ⟨_, _, h1⟩ <;> rw [ho] at h1 <;> cases h1
    | newFlag ho => rcases h1 with ⟨h1, _⟩ | ⟨_, _, h1⟩ <;> rw [ho] at h1 <;> cases h1
    | spawn ho => rcases h1 with ⟨h1, _⟩ | ⟨_, _, h1⟩ <;> rw [ho] at h1 <;> cases h1
    | @slept new old' c f k ht =>
      rw [h0] at ht
      obtain ⟨rfl, rfl, rfl⟩ := only_alive ht h2 (by simp)
      have hk : 1 ≤ k ∧ k < 100 := h3.ok
      have hs : sleepsSinceReset hist = 99 * ticksSinceReset hist + (k - 1) := h6
      refine .running ⟨c, f, .checking k⟩ old' rfl h1 h2 ⟨h3.counter, h3.flag, h3.value, hk⟩ h4
        (by unfold Thread.Alive; simp) ?_
      show sleepsSinceReset hist + 1 = 99 * ticksSinceReset hist + k
      omega
    | @exit new old' c f k ht hf =>
      rw [h0] at ht
      obtain ⟨rfl, rfl, rfl⟩ := only_alive ht h2 (by simp)
      have : f = s.mustStop := h3.flag
      rw [this, h4] at hf
      cases hf
    | @goOn new old' c f k ht hf =>
      rw [h0] at ht
      obtain ⟨rfl, rfl, rfl⟩ := only_alive ht h2 (by simp)
      have hk : 1 ≤ k ∧ k < 100 := h3.ok
      have hs : sleepsSinceReset hist = 99 * ticksSinceReset hist + k := h6
      refine .running ⟨c, f, _⟩ old' rfl h1 h2 ⟨h3.counter, h3.flag, h3.value, ?_⟩ h4 ?_ ?_
      · show At.Ok (if k + 1 < 100 then _ else _)
        split
        · exact ⟨Nat.le_add_left .., by assumption⟩
        · trivial
      · show (if k + 1 < 100 then At.sleeping (k + 1) else At.adding) ≠ _
        split <;> simp
      · show sleepsSinceReset hist = 99 * ticksSinceReset hist + At.sleeps (if k + 1 < 100 then _ else _)
        split
        · exact hs
        · show _ = _ + 99; omega
    | @add new old' c f w ht hw =>
      rw [h0] at ht
      obtain ⟨rfl, rfl, rfl⟩ := only_alive ht h2 (by simp)
      have hc : c = s.counter := h3.counter
      have hv := h3.value
      subst hc
      rw [hv] at hw
      cases hw
      have hs : sleepsSinceReset hist = 99 * ticksSinceReset hist + 99 := h6
      refine .running ⟨_, f, .sleeping 1⟩ old' rfl h1 h2
        ⟨rfl, h3.flag, ?_, ⟨Nat.le_refl _, (by decide : 1 < 100)⟩⟩ h4 (by unfold Thread.Alive; simp) ?_
      · show (s.counters.set s.counter _)[s.counter]? = some (BitVec.ofNat 32 (ticksSinceReset hist + 1))
        rw [List.getElem?_set_self (by rw [List.getElem?_eq_some_iff] at hv; exact hv.1)]
        congr 1
        apply BitVec.eq_of_toNat_eq
        rw [BitVec.toNat_add, BitVec.toNat_ofNat, BitVec.toNat_ofNat, Nat.mod_add_mod]; rfl
      · show sleepsSinceReset hist = 99 * (ticksSinceReset hist + 1) + 0
        omega
  | stopping th old a h0 h1 h2 h3 h4 h5 =>
    cases h with
    | read ho => rw [h2] at ho; cases ho
    | write ho => rw [h2] at ho; cases ho
    | stopNone ho => rw [h2] at ho; cases ho
    | stop ho => rw [h2] at ho; cases ho
    | resetNone ho => rw [h2] at ho; cases ho
    | reset ho => rw [h2] at ho; cases ho
    | store ho => rw [h2] at ho; cases ho
    | @join t a' th' ho hg hp =>
      rw [h2] at ho
      cases ho
      rw [h0, last_thread] at hg
      cases hg
      have hd : AllDone s.threads := by
        intro x hx
        rw [h0] at hx
        rcases List.mem_cons.mp hx with rfl | hx
        · exact hp
        · exact h3 x hx
      have hl : s.mustStop < s.flags.length := by rw [List.getElem?_eq_some_iff] at h5; exact h5.1
      cases a with
      | returns => exact .quiet h1 (.inl rfl) hd h4.value hl
      | resets => exact .quiet h1 (.inr rfl) hd h4.value hl
    | newCounter ho => rw [h2] at ho; cases ho
    | newFlag ho => rw [h2] at ho; cases ho
    | spawn ho => rw [h2] at ho; cases ho
    | @slept new old' c f k ht =>
      rw [h0] at ht
      obtain ⟨rfl, rfl, rfl⟩ := only_alive ht h3 (by simp)
      exact .stopping _ old' a rfl h1 h2 h3 ⟨h4.counter, h4.flag, h4.value, h4.ok⟩ h5
    | @exit new old' c f k ht hf =>
      rw [h0] at ht
      obtain ⟨rfl, rfl, rfl⟩ := only_alive ht h3 (by simp)
      exact .stopping _ old' a rfl h1 h2 h3 ⟨h4.counter, h4.flag, h4.value, trivial⟩ h5
    | @goOn new old' c f k ht hf =>
      rw [h0] at ht
      obtain ⟨rfl, rfl, rfl⟩ := only_alive ht h3 (by simp)
      have : f = s.mustStop := h4.flag
      rw [this, h5] at hf
      cases hf
    | @add new old' c f w ht hw =>
      rw [h0] at ht
      obtain ⟨rfl, rfl, rfl⟩ := only_alive ht h3 (by simp)
      have hc : c = s.counter := h4.counter
      have hv := h4.value
      subst hc
      rw [hv] at hw
      cases hw
      refine .stopping ⟨_, f, .sleeping 1⟩ old' a rfl h1 h2 h3
        ⟨rfl, h4.flag, ?_, ⟨Nat.le_refl _, (by decide : 1 < 100)⟩⟩ h5
      show (s.counters.set s.counter _)[s.counter]? = some (BitVec.ofNat 32 (ticksSinceReset hist + 1))
      rw [List.getElem?_set_self (by rw [List.getElem?_eq_some_iff] at hv; exact hv.1)]
      congr 1
      apply BitVec.eq_of_toNat_eq
      rw [BitVec.toNat_add, BitVec.toNat_ofNat, BitVec.toNat_ofNat, Nat.mod_add_mod]; rfl

theorem Inv.run {s s' : St} {hist es : List Event} (hi : Inv s hist) (h : Run s es s') : Inv s' (es.reverse ++ hist) := by
  induction h generalizing hist with
  | nil => exact hi
  | cons h _ ih => rw [List.reverse_cons, List.append_assoc]; exact ih (hi.step h)

theorem Inv.new : Inv St.new [] :=
  .quiet rfl (.inl rfl) (fun th h => by cases h) rfl (by decide)

theorem inv_of_run {s : St} {es : List Event} (h : Run St.new es s) : Inv s es.reverse := by
  have := Inv.new.run h
  rwa [List.append_nil] at this

/-- The shape of the threads: all of them are over, but maybe the newest one. -/
theorem Inv.threads {s : St} {hist : List Event} (hi : Inv s hist) : AllDone s.threads.tail := by
  cases hi with
  | quiet _ _ h => exact fun x hx => h x (List.mem_of_mem_tail hx)
  | newFlag _ _ h => exact fun x hx => h x (List.mem_of_mem_tail hx)
  | spawning _ _ h => exact fun x hx => h x (List.mem_of_mem_tail hx)
  | running th old h0 _ h => rw [h0]; exact h
  | stopping th old a h0 _ _ h => rw [h0]; exact h

/-- **C75**. In every state of every execution, at most one counting thread runs. -/
theorem C75_one_thread {s : St} {es : List Event} (h : Run St.new es s) {i j : Nat} {x y : Thread}
    (hx : s.threads[i]? = some x) (hy : s.threads[j]? = some y) (hax : Thread.Alive x) (hay : Thread.Alive y) : i = j := by
  have ht := (inv_of_run h).threads
  have zero : ∀ {k : Nat} {z : Thread}, s.threads[k]? = some z → Thread.Alive z → k = 0 := by
    intro k z hz ha
    cases k with
    | zero => rfl
    | succ k =>
      exact absurd (ht z (List.mem_of_getElem? (i := k) (by rw [List.getElem?_tail]; exact hz))) ha
  rw [zero hx hax, zero hy hay]

/-- **C75**. When a reset returns, every older thread is over: it was stopped and joined before the new one started. -/
theorem C75_joined_first {s s' : St} {es : List Event} (h : Run St.new es s) (hs : Step s .resetReturned s') :
    (∀ th ∈ s.threads, ¬ Thread.Alive th) ∧ ∃ th, s'.threads = th :: s.threads := by
  have hi := inv_of_run h
  generalize he : Event.resetReturned = e at hs
  cases hs with
  | spawn ho =>
    refine ⟨?_, _, rfl⟩
    cases hi with
    | quiet _ h2 => rcases h2 with h2 | h2 <;> rw [ho] at h2 <;> cases h2
    | newFlag _ h2 => rw [ho] at h2; cases h2
    | spawning _ _ h3 => exact fun th hm ha => ha (h3 th hm)
    | running _ _ _ h1 => rcases h1 with ⟨h1, _⟩ | ⟨_, _, h1⟩ <;> rw [ho] at h1 <;> cases h1
    | stopping _ _ _ _ _ h2 => rw [ho] at h2; cases h2
  | @join t a th _ _ _ => cases a <;> cases he
  | _ => cases he

/-- **C75**. A read gives exactly the number of increments done, by whichever thread, since the last reset returned (modulo
`2 ^ 32`); before any reset it gives 0. -/
theorem C75_read {s s' : St} {es : List Event} {w : Word} (h : Run St.new es s) (hs : Step s (.read w) s') :
    w = BitVec.ofNat 32 (ticksSinceReset es.reverse) := by
  have hi := inv_of_run h
  have hr : s.owner = .idle ∧ s.counters[s.counter]? = some w := by
    generalize he : Event.read w = e at hs
    cases hs with
    | read ho hw => cases he; exact ⟨ho, hw⟩
    | @join t a th _ _ _ => cases a <;> cases he
    | _ => cases he
  obtain ⟨ho, hw⟩ := hr
  cases hi with
  | quiet _ _ _ h4 => rw [hw] at h4; cases h4; rfl
  | newFlag _ h2 => rw [ho] at h2; cases h2
  | spawning _ h2 => rw [ho] at h2; cases h2
  | running _ _ _ _ _ h3 => have h4 := h3.value; rw [hw] at h4; cases h4; rfl
  | stopping _ _ _ _ _ h2 => rw [ho] at h2; cases h2

/-- **C75**. Outside of a stop or a reset, every request is accepted: reads always have a value, and a stop or a reset can
begin. -/
theorem C75_accepts {s : St} {es : List Event} (h : Run St.new es s) (ho : s.owner = .idle) :
    (∃ w, Step s (.read w) s) ∧ Step s .writeRefused s ∧ (∃ s', Step s .stopCalled s') ∧ ∃ s', Step s .resetCalled s' := by
  refine ⟨?_, .write ho, ?_, ?_⟩
  · cases inv_of_run h with
    | quiet _ _ _ h4 => exact ⟨_, .read ho h4⟩
    | newFlag _ h2 => rw [ho] at h2; cases h2
    | spawning _ h2 => rw [ho] at h2; cases h2
    | running _ _ _ _ _ h3 => exact ⟨_, .read ho h3.value⟩
    | stopping _ _ _ _ _ h2 => rw [ho] at h2; cases h2
  · cases hc : s.countingThread with
    | none => exact ⟨_, .stopNone ho hc⟩
    | some t => exact ⟨_, .stop ho hc⟩
  · cases hc : s.countingThread with
    | none => exact ⟨_, .resetNone ho hc⟩
    | some t => exact ⟨_, .reset ho hc⟩

theorem AllDone.step {s s' : St} {e : Event} (hd : AllDone s.threads) (h : Step s e s') (he : e ≠ .resetReturned) :
    AllDone s'.threads ∧ ∀ t, e ≠ .tick t := by
  cases h with
  | spawn _ => exact absurd rfl he
  | slept ht => exact (none_alive ht hd (by simp)).elim
  | exit ht _ => exact (none_alive ht hd (by simp)).elim
  | goOn ht _ => exact (none_alive ht hd (by simp)).elim
  | add ht _ => exact (none_alive ht hd (by simp)).elim
  | @join t a th _ _ _ => cases a <;> exact ⟨hd, fun _ h => by cases h⟩
  | _ => exact ⟨hd, fun _ h => by cases h⟩

theorem AllDone.run {s s' : St} {es : List Event} (hd : AllDone s.threads) (h : Run s es s') (he : .resetReturned ∉ es) :
    ∀ t, .tick t ∉ es := by
  induction h with
  | nil => exact fun t h => by cases h
  | cons h _ ih =>
    intro t ht
    obtain ⟨h1, h2⟩ := hd.step h (fun hh => he (by rw [hh]; exact List.mem_cons_self))
    rcases List.mem_cons.mp ht with hh | hh
    · exact h2 t hh.symm
    · exact ih h1 (fun hm => he (List.mem_cons_of_mem _ hm)) t hh

theorem Run.split {s s' : St} {es es' : List Event} (h : Run s (es ++ es') s') : ∃ m, Run s es m ∧ Run m es' s' := by
  induction es generalizing s with
  | nil => exact ⟨s, .nil, h⟩
  | cons e es ih =>
    cases h with
    | cons h1 h2 =>
      obtain ⟨m, h3, h4⟩ := ih h2
      exact ⟨m, .cons h1 h3, h4⟩

/-- **C75**. Once `stop` (or `drop`) has returned, nothing increments any counter until a reset returns. -/
theorem C75_stopped {s : St} {es es' : List Event} (h : Run St.new (es ++ .stopReturned :: es') s)
    (hr : .resetReturned ∉ es') (t : Nat) : .tick t ∉ es' := by
  obtain ⟨m, h1, h2⟩ := h.split
  have hi := inv_of_run h1
  cases h2 with
  | @cons _ s1 _ _ _ h3 h4 =>
    refine AllDone.run ?_ h4 hr t
    have hi' := hi.step h3
    have ho : s1.owner = .idle ∧ s1.countingThread = m.countingThread ∧ ∃ t a, m.owner = .joining t a := by
      generalize he : Event.stopReturned = e at h3
      cases h3 with
      | @join t a th ho _ _ =>
        cases a with
        | returns => exact ⟨rfl, rfl, _, _, ho⟩
        | resets => cases he
      | _ => cases he
    obtain ⟨ho, hc, t', a, hm⟩ := ho
    have hn : m.countingThread = none := by
      cases hi with
      | quiet h => exact h
      | newFlag h => exact h
      | spawning h => exact h
      | running _ _ _ h1 => rcases h1 with ⟨h1, _⟩ | ⟨_, _, h1⟩ <;> rw [hm] at h1 <;> cases h1
      | stopping _ _ _ _ h => exact h
    rw [hn] at hc
    cases hi' with
    | quiet _ _ h => exact h
    | newFlag _ h2 => rw [ho] at h2; cases h2
    | spawning _ h2 => rw [ho] at h2; cases h2
    | running _ _ _ h1 =>
      rcases h1 with ⟨_, h1⟩ | ⟨_, _, h1⟩
      · rw [hc] at h1; cases h1
      · rw [ho] at h1; cases h1
    | stopping _ _ _ _ _ h2 => rw [ho] at h2; cases h2

/-- How many steps of its own a thread that was told to stop can still do. -/
def At.left : At → Nat
  | .adding => 3
  | .sleeping _ => 2
  | .checking _ => 1
  | .finished => 0

theorem Inv.joining {s : St} {hist : List Event} (hi : Inv s hist) {t : Nat} {a : After} (ho : s.owner = .joining t a) :
    ∃ th old, s.threads = th :: old ∧ t = old.length ∧ AllDone old ∧ Current s hist th ∧
      s.flags[s.mustStop]? = some true := by
  cases hi with
  | quiet _ h2 => rcases h2 with h2 | h2 <;> rw [ho] at h2 <;> cases h2
  | newFlag _ h2 => rw [ho] at h2; cases h2
  | spawning _ h2 => rw [ho] at h2; cases h2
  | running _ _ _ h1 => rcases h1 with ⟨h1, _⟩ | ⟨_, _, h1⟩ <;> rw [ho] at h1 <;> cases h1
  | stopping th old a' h0 _ h2 h3 h4 h5 =>
    rw [ho] at h2
    cases h2
    exact ⟨th, old, h0, rfl, h3, h4, h5⟩

/-- **C75**. A `join` always ends: while the owner waits, the thread it waits for can always take its next step (or is over,
and the owner goes on) … -/
theorem C75_join_progress {s : St} {es : List Event} (h : Run St.new es s) {t : Nat} {a : After}
    (ho : s.owner = .joining t a) : ∃ e s', Step s e s' := by
  obtain ⟨th, old, h0, rfl, _, hc, hf⟩ := (inv_of_run h).joining ho
  obtain ⟨c, f, pc⟩ := th
  cases pc with
  | sleeping k => exact ⟨_, _, .slept (new := []) h0⟩
  | checking k =>
    have : f = s.mustStop := hc.flag
    exact ⟨_, _, .exit (new := []) h0 (by rw [this]; exact hf)⟩
  | adding =>
    have : c = s.counter := hc.counter
    exact ⟨_, _, .add (new := []) h0 (by rw [this]; exact hc.value)⟩
  | finished => exact ⟨_, _, .join ho (by rw [h0]; exact last_thread _ old) rfl⟩

/-- `n` steps, by whomever, can be taken while the owner waits for a thread. -/
inductive Waits : St → Nat → Prop
  | stop {s : St} : Waits s 0
  | step {s s' : St} {e : Event} {t : Nat} {a : After} {n : Nat} : s.owner = .joining t a → Step s e s' → Waits s' n →
      Waits s (n + 1)

theorem Waits.bound {s : St} {n : Nat} (hw : Waits s n) : ∀ {hist}, Inv s hist → ∀ {t a}, s.owner = .joining t a →
    ∀ {th old}, s.threads = th :: old → n ≤ th.pc.left + 1 := by
  induction hw with
  | stop => exact fun _ _ _ _ _ _ _ => Nat.zero_le _
  | @step s s1 e t1 a1 n ho1 hstep hrest ih =>
    intro hist hi t a ho th old h0
    obtain ⟨th', old', h0', _, hd, hc, hf⟩ := hi.joining ho
    rw [h0] at h0'
    cases h0'
    have ih' := @ih _ (hi.step hstep)
    have fin : ∀ pc t a, s1.owner = .joining t a → (⟨th.counter, th.flag, pc⟩ :: old : List Thread) = s1.threads →
        pc.left + 1 ≤ th.pc.left → n + 1 ≤ th.pc.left + 1 := by
      intro pc t a ho h1 h2
      have := ih' ho h1.symm
      have h3 : (⟨th.counter, th.flag, pc⟩ : Thread).pc.left = pc.left := rfl
      omega
    cases hstep with
    | @join t a2 th2 ho2 _ _ =>
      cases hrest with
      | stop => exact Nat.le_add_left ..
      | step ho3 => cases a2 <;> cases ho3
    | @slept new old2 c f k ht =>
      rw [h0] at ht
      obtain ⟨rfl, rfl, rfl⟩ := only_alive ht hd (by simp)
      exact fin (.checking k) _ _ ho rfl (Nat.le_refl _)
    | @exit new old2 c f k ht _ =>
      rw [h0] at ht
      obtain ⟨rfl, rfl, rfl⟩ := only_alive ht hd (by simp)
      exact fin .finished _ _ ho rfl (Nat.le_refl _)
    | @goOn new old2 c f k ht hfl =>
      rw [h0] at ht
      obtain ⟨rfl, rfl, rfl⟩ := only_alive ht hd (by simp)
      have : f = s.mustStop := hc.flag
      rw [this, hf] at hfl
      cases hfl
    | @add new old2 c f w ht _ =>
      rw [h0] at ht
      obtain ⟨rfl, rfl, rfl⟩ := only_alive ht hd (by simp)
      exact fin (.sleeping 1) _ _ ho rfl (Nat.le_refl _)
    | read h => rw [ho] at h; cases h
    | write h => rw [ho] at h; cases h
    | stopNone h => rw [ho] at h; cases h
    | stop h => rw [ho] at h; cases h
    | resetNone h => rw [ho] at h; cases h
    | reset h => rw [ho] at h; cases h
    | store h => rw [ho] at h; cases h
    | newCounter h => rw [ho] at h; cases h
    | newFlag h => rw [ho] at h; cases h
    | spawn h => rw [ho] at h; cases h

/-- … and whatever the schedule, after at most four steps, whoever takes them, the `join` has returned: no stop or reset
blocks forever. -/
theorem C75_join_bounded {s : St} {es : List Event} {n : Nat} (h : Run St.new es s) (hw : Waits s n) : n ≤ 4 := by
  cases hw with
  | stop => exact Nat.zero_le _
  | step ho h1 h2 =>
    obtain ⟨th, old, h0, _⟩ := (inv_of_run h).joining ho
    refine Nat.le_trans (Waits.bound (.step ho h1 h2) (inv_of_run h) ho h0) ?_
    cases th.pc with
    | sleeping k => exact (by decide : 2 + 1 ≤ 4)
    | checking k => exact (by decide : 1 + 1 ≤ 4)
    | adding => exact (by decide : 3 + 1 ≤ 4)
    | finished => exact (by decide : 0 + 1 ≤ 4)

/-- **C79**, what holds: while a thread counts (it was not told to stop), it increments the counter after exactly 99 sleeps of
10 ms each time. -/
theorem C79_period_partial {s : St} {es : List Event} (h : Run St.new es s) (hc : s.countingThread ≠ none) :
    99 * ticksSinceReset es.reverse ≤ sleepsSinceReset es.reverse ∧
    sleepsSinceReset es.reverse ≤ 99 * ticksSinceReset es.reverse + 99 := by
  cases inv_of_run h with
  | quiet h => exact absurd h hc
  | newFlag h => exact absurd h hc
  | spawning h => exact absurd h hc
  | stopping _ _ _ _ h => exact absurd h hc
  | running th old _ _ _ h3 _ _ h6 =>
    have hk : th.pc.sleeps ≤ 99 := by
      have := h3.ok
      cases hp : th.pc with
      | sleeping k => rw [hp] at this; have := this.2; show k - 1 ≤ 99; omega
      | checking k => rw [hp] at this; have := this.2; show k ≤ 99; omega
      | adding => exact Nat.le_refl _
      | finished => exact Nat.zero_le _
    omega

/-- A thread that sleeps for the `n`-th time, for `n` more sleeps. -/
theorem run_sleeps {s : St} {c f : Nat} (hf : s.flags[f]? = some false) : ∀ (n k : Nat), k + n = 99 →
    s.threads = [⟨c, f, .sleeping (k + 1)⟩] → n ≠ 0 →
    ∃ es, Run s es { s with threads := [⟨c, f, .adding⟩] } ∧ ∀ older, sleepsSinceReset (es.reverse ++ older) =
      n + sleepsSinceReset older ∧ ticksSinceReset (es.reverse ++ older) = ticksSinceReset older := by
  intro n
  induction n generalizing s with
  | zero => exact fun _ _ _ h => absurd rfl h
  | succ n ih =>
    intro k hk ht _
    have s1 : Step s (.slept 0) { s with threads := [⟨c, f, .checking (k + 1)⟩] } := .slept (new := []) (old := []) ht
    have s2 : Step { s with threads := [⟨c, f, .checking (k + 1)⟩] } .silent
        { s with threads := [⟨c, f, if k + 1 + 1 < 100 then .sleeping (k + 1 + 1) else .adding⟩] } :=
      .goOn (new := []) (old := []) rfl hf
    by_cases hn : n = 0
    · subst hn
      rw [if_neg (by omega)] at s2
      refine ⟨[.slept 0, .silent], .cons s1 (.cons s2 .nil), fun older => ⟨?_, rfl⟩⟩
      show sleepsSinceReset older + 1 = _; omega
    · rw [if_pos (by omega)] at s2
      obtain ⟨es, h1, h2⟩ := ih (s := { s with threads := [⟨c, f, .sleeping (k + 1 + 1)⟩] }) hf (k + 1) (by omega) rfl hn
      refine ⟨.slept 0 :: .silent :: es, .cons s1 (.cons s2 h1), fun older => ?_⟩
      rw [List.reverse_cons, List.reverse_cons, List.append_assoc, List.append_assoc]
      obtain ⟨h3, h4⟩ := h2 (.silent :: .slept 0 :: older)
      refine ⟨h3.trans ?_, h4⟩
      show n + (sleepsSinceReset older + 1) = _; omega

/-- **C79** fails: the counter is not incremented each second but, at the earliest, after 99 sleeps of 10 ms: there is an
execution with one increment and only 99 sleeps since the reset. It is also a non-trivial execution for the theorems above. -/
theorem C79_second_refuted : ∃ s es, Run St.new es s ∧ s.countingThread ≠ none ∧ ticksSinceReset es.reverse = 1 ∧
    sleepsSinceReset es.reverse * 10 = 990 := by
  let s0 : St := ⟨1, 1, some 0, .idle, [0, 0], [false, false], [⟨1, 1, .sleeping 1⟩]⟩
  obtain ⟨es, h1, h2⟩ := run_sleeps (s := s0) (c := 1) (f := 1) rfl 99 0 rfl rfl (by decide)
  have h0 : Run St.new ([.resetCalled, .silent, .silent, .resetReturned] ++ (es ++ [.tick 0]))
      { s0 with threads := [⟨1, 1, .sleeping 1⟩], counters := [0, 1] } := by
    have pre : Run St.new [.resetCalled, .silent, .silent, .resetReturned] s0 :=
      .cons (.resetNone rfl rfl) (.cons (.newCounter rfl) (.cons (.newFlag rfl) (.cons (.spawn rfl) .nil)))
    have tail : Run { s0 with threads := [⟨1, 1, .adding⟩] } [.tick 0]
        { s0 with threads := [⟨1, 1, .sleeping 1⟩], counters := [0, 1] } :=
      .cons (.add (new := []) (old := []) (w := 0) rfl rfl) .nil
    have app : ∀ {s m s' : St} {es es' : List Event}, Run s es m → Run m es' s' → Run s (es ++ es') s' := by
      intro s m s' es es' h h'
      induction h with
      | nil => exact h'
      | cons a _ ih => exact .cons a (ih h')
    exact app pre (app h1 tail)
  obtain ⟨h3, h4⟩ := h2 [.resetReturned, .silent, .silent, .resetCalled]
  have e : ([Event.resetCalled, .silent, .silent, .resetReturned] ++ (es ++ [Event.tick 0])).reverse =
      .tick 0 :: (es.reverse ++ [.resetReturned, .silent, .silent, .resetCalled]) := by simp
  refine ⟨_, _, h0, by simp [s0], ?_, ?_⟩
  · rw [e]; show ticksSinceReset _ + 1 = 1; rw [h4]; rfl
  · rw [e]; show sleepsSinceReset (es.reverse ++ _) * 10 = 990; rw [h3]; rfl

/-- A reset while a thread runs: stop, join, new thread. -/
example : ∃ s es, Run St.new es s ∧ s.threads = [⟨2, 2, .sleeping 1⟩, ⟨1, 1, .finished⟩] :=
  ⟨_, _, .cons (.resetNone rfl rfl) (.cons (.newCounter rfl) (.cons (.newFlag rfl) (.cons (.spawn rfl)
    (.cons (.reset rfl rfl) (.cons (.slept (new := []) (old := []) rfl) (.cons (.store rfl)
    (.cons (.exit (new := []) (old := []) rfl rfl) (.cons (.join rfl rfl rfl) (.cons (.newCounter rfl)
    (.cons (.newFlag rfl) (.cons (.spawn rfl) .nil))))))))))), rfl⟩

/-- A stop while a thread sleeps; the thread is over when `stop` returns, and the counter still answers (`C75_stopped`,
`C75_accepts`). -/
example : ∃ s es, Run St.new (es ++ .stopReturned :: [.read 0, .writeRefused]) s ∧ s.owner = .idle ∧
    s.threads = [⟨1, 1, .finished⟩] ∧ .resetReturned ∈ es := by
  have h : Run St.new ([.resetCalled, .silent, .silent, .resetReturned, .stopCalled, .slept 0, .silent, .exited 0] ++
      .stopReturned :: [.read 0, .writeRefused])
      ⟨1, 1, none, .idle, [0, 0], [false, true], [⟨1, 1, .finished⟩]⟩ :=
    .cons (.resetNone rfl rfl) (.cons (.newCounter rfl) (.cons (.newFlag rfl) (.cons (.spawn rfl)
      (.cons (.stop rfl rfl) (.cons (.slept (new := []) (old := []) rfl) (.cons (.store rfl)
      (.cons (.exit (new := []) (old := []) rfl rfl) (.cons (.join (a := .returns) rfl rfl rfl) (.cons (.read rfl rfl)
      (.cons (.write rfl) .nil))))))))))
  exact ⟨_, _, h, rfl, rfl, by decide⟩

/-- The owner waits for a thread that still sleeps: the hypothesis of `C75_join_progress`. -/
example : ∃ s es, Run St.new es s ∧ s.owner = .joining 0 .returns ∧ s.threads = [⟨1, 1, .sleeping 1⟩] := by
  have h : Run St.new [.resetCalled, .silent, .silent, .resetReturned, .stopCalled, .silent]
      ⟨1, 1, none, .joining 0 .returns, [0, 0], [false, true], [⟨1, 1, .sleeping 1⟩]⟩ :=
    .cons (.resetNone rfl rfl) (.cons (.newCounter rfl) (.cons (.newFlag rfl) (.cons (.spawn rfl)
      (.cons (.stop rfl rfl) (.cons (.store rfl) .nil)))))
  exact ⟨_, _, h, rfl, rfl⟩

end Lrvm.Counter
