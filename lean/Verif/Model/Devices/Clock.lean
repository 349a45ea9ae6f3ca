import Verif.Model.Devices.Memory

/-!
# The realtime clock (`lrvm_aux/src/time/realtime.rs`)

The host's clocks are modelled by the sequences of their readings: `system n` is what reading number `n` of the system time
gives since the Unix epoch (`none` if it is before), `instant n` the reading number `n` of the monotonic clock, in
nanoseconds. The component counts its readings of both in `reads`.
-/

namespace Lrvm

/-- `std::time::Duration`: seconds and nanoseconds. -/
structure Duration where
  secs : U64
  nanos : Fin 1000000000

/-- `RealtimeClock`, `lrvm_aux/src/time/realtime.rs:19-22`. -/
structure RealtimeClock where
  hwId : U64
  resetAt : Nat
  system : Nat → Option Duration
  instant : Nat → Nat
  reads : Nat

/-- `RealtimeClock::new`, `lrvm_aux/src/time/realtime.rs:25-30`. -/
def RealtimeClock.new (hwId : U64) (system : Nat → Option Duration) (instant : Nat → Nat) : RealtimeClock :=
  { hwId, resetAt := instant 0, system, instant, reads := 1 }

/-- A number of nanoseconds as a `Duration` (simplification: the seconds are taken modulo `2 ^ 64`, 584 billion years). -/
def Duration.ofNanos (n : Nat) : Duration :=
  { secs := BitVec.ofNat 64 (n / 1000000000), nanos := ⟨n % 1000000000, Nat.mod_lt _ (by decide)⟩ }

/-- `Instant::elapsed` (saturating). -/
def elapsed (start now : Nat) : Duration := Duration.ofNanos (now - start)

/-- The final `match` of `RealtimeClock::read`, `lrvm_aux/src/time/realtime.rs:55-64`: `subsec_millis`, `subsec_micros` and
`subsec_nanos` are the whole fraction in each unit. -/
def clockWord (pf : Profile) (time : Duration) (addr : Word) : Res Word :=
  match (addr % 3).toNat with
  | 0 => some ((time.secs >>> 32).setWidth 32)
  | 1 => some ((time.secs &&& 0xFFFFFFFF#64).setWidth 32)
  | 2 => do
    let millis ← pf.mul (BitVec.ofNat 32 (time.nanos / 1000000)) 1000000#32
    let micros ← pf.mul (BitVec.ofNat 32 (time.nanos / 1000)) 1000#32
    let s ← pf.add millis micros
    pf.add s (BitVec.ofNat 32 time.nanos)
  | _ => none

/-- `RealtimeClock::read`, `lrvm_aux/src/time/realtime.rs:42-65`. The `Bus` trait has no build profile, so the arithmetic is
the one of debug builds; `clockWord_profile` shows it never overflows. -/
def RealtimeClock.read (d : RealtimeClock) (addr : Word) (ex : U16) : Res (RealtimeClock × Word × U16) :=
  let d' := { d with reads := d.reads + 1 }
  if addr < 14 then
    match d.system d.reads with
    | some time => do
      let w ← clockWord .debug time addr
      some (d', w, ex)
    | none => some (d', 0, AuxHwException.timeSynchronizationError.encode)
  else do
    let w ← clockWord .debug (elapsed d.resetAt (d.instant d.reads)) addr
    some (d', w, ex)

/-- `impl Bus for RealtimeClock`, `lrvm_aux/src/time/realtime.rs:33-74`. -/
instance : Bus RealtimeClock where
  name _ := "Realtime Clock".toList
  metadata _ d := do
    let m ← DeviceMetadata.new d.hwId 24 (.clock .realtime) none none
    m.encode
  read := RealtimeClock.read
  write d _ _ _ := some (d, AuxHwException.memoryNotWritable.encode)
  reset d := some { d with resetAt := d.instant d.reads, reads := d.reads + 1 }

end Lrvm
