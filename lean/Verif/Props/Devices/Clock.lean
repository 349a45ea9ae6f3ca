import Verif.Model.Devices.Clock
import Verif.Props.Devices.Displays

/-!
# The realtime clock: C72, C73
-/

namespace Lrvm

open Spec

variable {pf : Profile}

/-- The words the documentation promises for a time: seconds on 64 bits, strongest half first, then the fraction of the
second in nanoseconds. -/
def Spec.timeWord (t : Duration) : Nat → Word
  | 0 => BitVec.ofNat 32 (t.secs.toNat / 2 ^ 32)
  | 1 => BitVec.ofNat 32 (t.secs.toNat % 2 ^ 32)
  | _ => BitVec.ofNat 32 t.nanos

/-- What word 2 really is for a fraction of `n` nanoseconds: its milliseconds, its microseconds and its nanoseconds, each
counting the whole fraction, are added. -/
def Spec.tripleFraction (n : Nat) : Nat := n / 1000000 * 1000000 + n / 1000 * 1000 + n

theorem profile_mul_small {x y : Word} {m n : Nat} (hx : x.toNat = m) (hy : y.toNat = n) (h : m * n < 4294967296) :
    pf.mul x y = some (x * y) := by
  subst hx hy
  cases pf with
  | release => rfl
  | debug => unfold Profile.mul; exact if_pos h

theorem profile_add_small {x y : Word} {m n : Nat} (hx : x.toNat = m) (hy : y.toNat = n) (h : m + n < 4294967296) :
    pf.add x y = some (x + y) := by
  subst hx hy
  cases pf with
  | release => rfl
  | debug => unfold Profile.add; exact if_pos h

theorem tripleFraction_word (n : Nat) (hn : n < 1000000000) :
    (do
      let millis ← pf.mul (BitVec.ofNat 32 (n / 1000000)) 1000000#32
      let micros ← pf.mul (BitVec.ofNat 32 (n / 1000)) 1000#32
      let s ← pf.add millis micros
      pf.add s (BitVec.ofNat 32 n)) = some (BitVec.ofNat 32 (tripleFraction n)) := by
  have g1 : n / 1000000 * 1000000 ≤ n := Nat.div_mul_le_self ..
  have g2 : n / 1000 * 1000 ≤ n := Nat.div_mul_le_self ..
  have f1 : n / 1000000 * 1000000 < 4294967296 := Nat.lt_of_le_of_lt g1 (Nat.lt_trans hn (by decide))
  have f2 : n / 1000 * 1000 < 4294967296 := Nat.lt_of_le_of_lt g2 (Nat.lt_trans hn (by decide))
  have hlt : n / 1000000 * 1000000 + n / 1000 * 1000 + n < 4294967296 :=
    Nat.lt_of_le_of_lt (Nat.add_le_add_right (Nat.add_le_add g1 g2) n) (by omega)
  have f3 : n / 1000000 * 1000000 + n / 1000 * 1000 < 4294967296 := Nat.lt_of_le_of_lt (Nat.le_add_right _ n) hlt
  have e1 : (BitVec.ofNat 32 (n / 1000000)).toNat = n / 1000000 := ofNat_toNat_lt (by omega)
  have e2 : (BitVec.ofNat 32 (n / 1000)).toNat = n / 1000 := ofNat_toNat_lt (by omega)
  have e3 : (BitVec.ofNat 32 n).toNat = n := ofNat_toNat_lt (by omega)
  have k1 : (1000000#32).toNat = 1000000 := rfl
  have k2 : (1000#32).toNat = 1000 := rfl
  have m1 : (BitVec.ofNat 32 (n / 1000000) * 1000000#32).toNat = n / 1000000 * 1000000 := by
    rw [BitVec.toNat_mul, e1, k1]; exact Nat.mod_eq_of_lt f1
  have m2 : (BitVec.ofNat 32 (n / 1000) * 1000#32).toNat = n / 1000 * 1000 := by
    rw [BitVec.toNat_mul, e2, k2]; exact Nat.mod_eq_of_lt f2
  have a1 : (BitVec.ofNat 32 (n / 1000000) * 1000000#32 + BitVec.ofNat 32 (n / 1000) * 1000#32).toNat =
      n / 1000000 * 1000000 + n / 1000 * 1000 := by
    rw [BitVec.toNat_add, m1, m2]; exact Nat.mod_eq_of_lt f3
  rw [profile_mul_small e1 k1 f1, profile_mul_small e2 k2 f2]
  show (do let s ← pf.add _ _; pf.add s _) = _
  rw [profile_add_small m1 m2 f3]
  show pf.add _ _ = _
  rw [profile_add_small a1 e3 hlt]
  congr 1
  apply BitVec.eq_of_toNat_eq
  unfold tripleFraction
  rw [BitVec.toNat_add, a1, e3, ofNat_toNat_lt hlt]
  exact Nat.mod_eq_of_lt hlt

theorem clockWord_eq (t : Duration) (a : Word) : clockWord pf t a =
    some (if a.toNat % 3 = 2 then BitVec.ofNat 32 (tripleFraction t.nanos) else timeWord t (a.toNat % 3)) := by
  have hm : (a % 3).toNat = a.toNat % 3 := by rw [BitVec.toNat_umod]; rfl
  have hs := t.secs.isLt
  unfold clockWord
  rw [hm]
  have h3 : a.toNat % 3 < 3 := Nat.mod_lt _ (by decide)
  generalize a.toNat % 3 = k at h3 ⊢
  rcases k with _ | _ | _ | k
  · show some _ = some (BitVec.ofNat 32 (t.secs.toNat / 2 ^ 32))
    congr 1
    apply BitVec.eq_of_toNat_eq
    rw [BitVec.toNat_setWidth, BitVec.toNat_ushiftRight, Nat.shiftRight_eq_div_pow, BitVec.toNat_ofNat]
  · show some _ = some (BitVec.ofNat 32 (t.secs.toNat % 2 ^ 32))
    congr 1
    apply BitVec.eq_of_toNat_eq
    rw [BitVec.toNat_setWidth, BitVec.toNat_and, show (0xFFFFFFFF#64).toNat = 2 ^ 32 - 1 from rfl,
      BitVec.toNat_ofNat,
      Nat.and_two_pow_sub_one_eq_mod]
  · exact tripleFraction_word t.nanos t.nanos.isLt
  · omega

/-- The arithmetic of the clock does not depend on the build profile: it never overflows. -/
theorem clockWord_profile (pf pf' : Profile) (t : Duration) (a : Word) : clockWord pf t a = clockWord pf' t a := by
  rw [clockWord_eq, clockWord_eq]

theorem clock_read_system {d : RealtimeClock} {a : Word} {t : Duration} (ex : U16) (ha : a.toNat < 14)
    (ht : d.system d.reads = some t) : Bus.read d a ex = some ({ d with reads := d.reads + 1 },
      if a.toNat % 3 = 2 then BitVec.ofNat 32 (tripleFraction t.nanos) else timeWord t (a.toNat % 3), ex) := by
  show RealtimeClock.read d a ex = _
  unfold RealtimeClock.read
  dsimp only
  rw [if_pos (by rw [BitVec.lt_def]; exact ha), ht]
  dsimp only
  rw [clockWord_eq]; rfl

theorem clock_read_elapsed {d : RealtimeClock} {a : Word} (ex : U16) (ha : ¬ a.toNat < 14) :
    Bus.read d a ex = some ({ d with reads := d.reads + 1 },
      (let t := elapsed d.resetAt (d.instant d.reads)
      if a.toNat % 3 = 2 then BitVec.ofNat 32 (tripleFraction t.nanos) else timeWord t (a.toNat % 3)), ex) := by
  show RealtimeClock.read d a ex = _
  unfold RealtimeClock.read
  dsimp only
  rw [if_neg (by rw [BitVec.lt_def]; exact ha), clockWord_eq]; rfl

/-- **C72**, words 0 and 1: the seconds of the system time at the time of the read, strongest half first. -/
theorem C72_system_seconds_partial {d : RealtimeClock} {t : Duration} (ex : U16) (ht : d.system d.reads = some t) :
    Bus.read d 0 ex = some ({ d with reads := d.reads + 1 }, timeWord t 0, ex) ∧
    Bus.read d 4 ex = some ({ d with reads := d.reads + 1 }, timeWord t 1, ex) :=
  ⟨clock_read_system (a := 0) ex (by decide) ht, clock_read_system (a := 4) ex (by decide) ht⟩

/-- **C72**, word 4: the weak half of the seconds elapsed since the last reset. -/
theorem C72_elapsed_seconds_partial (d : RealtimeClock) (ex : U16) :
    Bus.read d 16 ex =
      some ({ d with reads := d.reads + 1 }, timeWord (elapsed d.resetAt (d.instant d.reads)) 1, ex) :=
  clock_read_elapsed (a := 16) ex (by decide)

/-- **C72**, words 2 and 5, as they are: the fraction of a second counted three times. -/
theorem C72_fraction_partial {d : RealtimeClock} {t : Duration} (ex : U16) (ht : d.system d.reads = some t) :
    Bus.read d 8 ex = some ({ d with reads := d.reads + 1 }, BitVec.ofNat 32 (tripleFraction t.nanos), ex) ∧
    Bus.read d 20 ex = some ({ d with reads := d.reads + 1 },
      BitVec.ofNat 32 (tripleFraction (elapsed d.resetAt (d.instant d.reads)).nanos), ex) :=
  ⟨clock_read_system (a := 8) ex (by decide) ht, clock_read_elapsed (a := 20) ex (by decide)⟩

/-- **C72**: before the Unix epoch a read of the system time is refused with `TimeSynchronizationError`. -/
theorem C72_epoch {d : RealtimeClock} (a : Word) (ex : U16) (ha : a.toNat < 14) (ht : d.system d.reads = none) :
    Bus.read d a ex = some ({ d with reads := d.reads + 1 }, 0, AuxHwException.timeSynchronizationError.encode) := by
  show RealtimeClock.read d a ex = _
  unfold RealtimeClock.read
  dsimp only
  rw [if_pos (by rw [BitVec.lt_def]; exact ha), ht]

/-- **C72** fails for word 2: as soon as the time is at least 1 µs past a second, it is not the fraction of that second. -/
theorem C72_fraction_refuted {d : RealtimeClock} {t : Duration} (ex : U16) (ht : d.system d.reads = some t)
    (h : 1000 ≤ t.nanos.val) : ∃ d' w, Bus.read d 8 ex = some (d', w, ex) ∧ w ≠ timeWord t 2 := by
  refine ⟨_, _, (C72_fraction_partial ex ht).1, fun hh => ?_⟩
  have hn := t.nanos.isLt
  have := congrArg BitVec.toNat hh
  rw [ofNat_toNat_lt (by unfold tripleFraction; omega), show timeWord t 2 = BitVec.ofNat 32 t.nanos from rfl,
    ofNat_toNat_lt (by omega)] at this
  unfold tripleFraction at this
  omega

/-- **C72** fails for word 3: it is the strong half of the *system* seconds, not of the elapsed ones. -/
theorem C72_word3_refuted : ∃ (d : RealtimeClock) (d' : RealtimeClock) (w : Word), Bus.read d 12 0 = some (d', w, 0) ∧
    w ≠ timeWord (elapsed d.resetAt (d.instant d.reads)) 0 :=
  ⟨RealtimeClock.new 7 (fun _ => some { secs := 0x500000000, nanos := 5 }) (fun _ => 0), _, _, rfl, by decide +kernel⟩

/-- Word 3, as it is. -/
theorem C72_word3_partial {d : RealtimeClock} {t : Duration} (ex : U16) (ht : d.system d.reads = some t) :
    Bus.read d 12 ex = some ({ d with reads := d.reads + 1 }, timeWord t 0, ex) :=
  clock_read_system (a := 12) ex (by decide) ht

/-- **C72**: nothing but a reset changes the origin of the elapsed time, and a reset sets it to the current instant. -/
theorem C72_origin {rs : List Req} {d d' : RealtimeClock} {as : List Answer} (h : serveAll d rs = some (d', as)) :
    ((∀ r ∈ rs, r ≠ .reset) → d'.resetAt = d.resetAt) ∧ d'.instant = d.instant ∧ d'.system = d.system ∧
    ∃ d2, Bus.reset d' = some d2 ∧ d2.resetAt = d.instant d'.reads := by
  have step : ∀ (d d1 : RealtimeClock) r a, serve d r = some (d1, a) →
      (r ≠ .reset → d1.resetAt = d.resetAt) ∧ d1.instant = d.instant ∧ d1.system = d.system := by
    intro d d1 r a hs
    cases r with
    | reset => cases hs; exact ⟨fun h => absurd rfl h, rfl, rfl⟩
    | write a w ex => cases hs; exact ⟨fun _ => rfl, rfl, rfl⟩
    | read a ex =>
      obtain ⟨⟨d2, w, ex'⟩, h1, h2⟩ := Option.map_eq_some_iff.mp hs
      cases h2
      by_cases ha : a.toNat < 14
      · cases ht : d.system d.reads with
        | none => rw [C72_epoch a ex ha ht] at h1; cases h1; exact ⟨fun _ => rfl, rfl, rfl⟩
        | some t => rw [clock_read_system ex ha ht] at h1; cases h1; exact ⟨fun _ => rfl, rfl, rfl⟩
      · rw [clock_read_elapsed ex ha] at h1; cases h1; exact ⟨fun _ => rfl, rfl, rfl⟩
  induction rs generalizing d as with
  | nil => cases h; exact ⟨fun _ => rfl, rfl, rfl, _, rfl, rfl⟩
  | cons r rs ih =>
    obtain ⟨⟨d1, a⟩, h1, h2⟩ := Option.bind_eq_some_iff.mp h
    obtain ⟨⟨d2, as2⟩, h3, h4⟩ := Option.bind_eq_some_iff.mp h2
    cases h4
    obtain ⟨i1, i2, i3, i4⟩ := ih h3
    obtain ⟨s1, s2, s3⟩ := step d d1 r a h1
    refine ⟨fun hr => (i1 fun r h => hr r (List.mem_cons_of_mem _ h)).trans (s1 (hr r List.mem_cons_self)),
      i2.trans s2, i3.trans s3, ?_⟩
    obtain ⟨d5, h5, h6⟩ := i4
    exact ⟨d5, h5, by rw [h6, s2]⟩

theorem C73_clock (hw : U64) (system : Nat → Option Duration) (instant : Nat → Nat) :
    Robust pf (RealtimeClock.new hw system instant) 24 := by
  refine robust_of_inv (fun _ => True) trivial ?_ ?_
  · intro d r _ hr
    cases r with
    | reset => exact ⟨_, _, rfl, trivial⟩
    | write a w ex => exact ⟨_, _, rfl, trivial⟩
    | read a ex =>
      by_cases ha : a.toNat < 14
      · cases ht : d.system d.reads with
        | none => exact ⟨_, _, by simp only [serve, C72_epoch a ex ha ht]; rfl, trivial⟩
        | some t => exact ⟨_, _, by simp only [serve, clock_read_system ex ha ht]; rfl, trivial⟩
      · exact ⟨_, _, by simp only [serve, clock_read_elapsed ex ha]; rfl, trivial⟩
  · intro d _
    obtain ⟨m, h1, h2⟩ := newEncode_size (hw := d.hwId) (size := 24) (cat := .clock .realtime) (md := none) (dt := none) rfl
    exact ⟨m, h1, by rw [h2]; rfl⟩

example : (serveAll (RealtimeClock.new 7 (fun n => some { secs := BitVec.ofNat 64 (0x512345678 + n), nanos := 2003004 })
    (fun n => 1500000000 * n)) [.read 0 0, .read 4 0, .read 8 0, .read 12 0, .read 16 0, .read 20 0, .reset, .read 16 0]).map
    (·.2) = some [.value 5 0, .value 0x1234567A 0, .value 6006004 0, .value 5 0, .value 7 0, .value 0 0, .done, .value 1 0] := by
  decide +kernel

/-- A clock in 1969, then in 2026: the hypotheses of `C72_epoch`, `C72_system_seconds_partial` and `C72_fraction_refuted`. -/
example : ∃ d : RealtimeClock,
    d = RealtimeClock.new 7 (fun n => if n = 1 then none else some { secs := 1790000000, nanos := 250000000 }) (fun n => n) ∧
    d.system d.reads = none ∧
    (serveAll d [.read 4 0, .read 4 0, .read 8 0]).map (·.2) =
      some [.value 0 AuxHwException.timeSynchronizationError.encode, .value 1790000000 0, .value 750000000 0] :=
  ⟨_, rfl, rfl, by decide +kernel⟩

end Lrvm
