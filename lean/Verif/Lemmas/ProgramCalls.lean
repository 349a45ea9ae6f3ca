import Verif.Lemmas.Programs
import Verif.Props.Hardware

/-!
# Following a program: HWD, CALL, RET and JPR
-/

namespace Lrvm.Prog

open Spec Lrvm

variable {D : Type} [Bus D] {pf : Profile} {fx : Fixed} {s : Machine D} {R : Nat → Word} {devs devs' : List D} {cyc : U128}
  {a : Word} {P : Machine D → Word → Prop}

/-- What the bridge of a board knows of its components. -/
structure Known (pf : Profile) (fx : Fixed) (orig : List D) (cs : List Component) : Prop where
  caches : createCaches pf 0 orig = some fx.caches
  table : TableOk pf fx.maps
  described : Describes pf orig fx.maps cs

theorem Go.hwd {r0 r1 r2 : Bool} {p0 p1 p2 : U8} {orig : List D} {cs : List Component} {n : Nat} (hP : Closed pf P)
    (h : Shows fx s R devs cyc) (hf : Fetched pf fx R devs (instrWord 0x1C r0 r1 r2 p0 p1 p2)) (hk : Known pf fx orig cs)
    (hlen : devs.length = orig.length) (hw : mayWrite true p0.toNat = true)
    (h22 : p0.toNat ≠ 22) (hr1 : r1 = true → p1.toNat < 32) (hr2 : r2 = true → p2.toNat < 32)
    (ha : hwAnswer cs (opVal1 R r1 p1).toNat (opVal1 R r2 p2).toNat = .value n)
    (hc : ∀ s', Shows fx s' (put R p0.toNat (BitVec.ofNat 32 n)) devs (cyc + 1) → P s' (R 22)) : P s a := by
  obtain ⟨h32, h23, h26⟩ := lt_of_mayWrite hw
  have hst := hwd_cached (by rw [h.caches]; exact hk.caches) (by rw [h.devs]; exact hlen) (by rw [h.maps]; exact hk.table)
    (by rw [h.maps]; exact hk.described) (hf.fetches h) (h.val1 hf.plain hr1) (h.val1 hf.plain hr2)
    (by rw [h.sv hf.plain.sv]; exact hw)
  rw [ha] at hst
  refine Go.of_steps hP h hst ?_ ?_ hc
  · intro m hm
    show reg (assign s.regs p0.toNat _) m = _
    rw [reg_assign_all _ _ h32 hm h22, h.regs 22 (by decide), h.regs m hm]
    rfl
  · unfold put
    rw [if_neg (Ne.symm h26), if_neg (by decide), hf.plain.et]

/-- Registers with another stack pointer. -/
def moved (R : Nat → Word) (v : Word) : Nat → Word := fun n => if n = 24 then v else R n

theorem Plain.moved (hp : Plain R) {v : Word} : Plain (Prog.moved R v) := ⟨hp.sv, hp.mtt, hp.et⟩

theorem Shows.sp (h : Shows fx s R devs cyc) (hp : Plain R) : stackPtr s.regs = R 24 := by
  unfold stackPtr
  rw [h.sv hp.sv, if_pos rfl]
  exact h.regs 24 (by decide)

theorem Shows.withSp (h : Shows fx s R devs cyc) (hp : Plain R) (v w : Word) {n : Nat} (hn : n < 32) :
    reg { withStackPtr s.regs v with pc := w } n = jump (moved R v) w n := by
  unfold withStackPtr
  rw [h.sv hp.sv, if_pos rfl]
  rw [show ({ ({ s.regs with ssp := v } : Regs) with pc := w } : Regs) = setReg (setReg s.regs 24 v) 22 w from rfl,
    setReg_all _ _ (by decide) hn, setReg_all _ _ (by decide) hn, h.regs n hn]
  rfl

theorem Go.call {r1 r2 : Bool} {p0 p1 p2 : U8} (hP : Closed pf P) (h : Shows fx s R devs cyc)
    (hf : Fetched pf fx R devs (instrWord 0x1B false r1 r2 p0 p1 p2)) (hov : (R 22).toNat + 4 < 2 ^ 32)
    (hal : (R 24 - 4).toNat % 4 = 0) (hl : Writes pf fx.maps devs (R 24 - 4) (R 22 + 4) devs')
    (hc : ∀ s', Shows fx s' (jump (moved R (R 24 - 4)) (BitVec.ofNat 32 (p0.toNat * 256 + p1.toNat))) devs' (cyc + 1) →
      P s' (R 22)) : P s a := by
  have hpc : s.regs.pc = R 22 := h.regs 22 (by decide)
  have hmtt : s.regs.mtt = 0 := (h.regs 29 (by decide)).trans hf.plain.mtt
  have hst := C33_call (hf.fetches h) (h.val2 hf.plain (isReg := false) (p := p0) (q := p1) (by simp))
    (fun _ => by rw [hpc]; exact hov)
    ((C26_load_iff hmtt).2.2 ⟨by rw [h.sp hf.plain]; exact hal, by rw [h.sp hf.plain, hpc]; exact hl s h.maps⟩)
  refine Go.of_steps hP h hst (R' := jump (moved R (R 24 - 4)) (BitVec.ofNat 32 (p0.toNat * 256 + p1.toNat))) ?_ hf.plain.et hc
  intro n hn
  rw [h.withSp hf.plain _ _ hn, h.sp hf.plain]
  rfl

theorem Go.ret {r0 r1 r2 : Bool} {p1 p2 : U8} {w : Word} (hP : Closed pf P) (h : Shows fx s R devs cyc)
    (hf : Fetched pf fx R devs (instrWord 0x1A r0 r1 r2 0x16 p1 p2))
    (hal : (R 24).toNat % 4 = 0) (hl : Reads pf fx.maps devs (R 24) w devs')
    (hc : ∀ s', Shows fx s' (jump (moved R (R 24 + 4)) w) devs' (cyc + 1) → P s' (R 22)) : P s a := by
  have hmtt : s.regs.mtt = 0 := (h.regs 29 (by decide)).trans hf.plain.mtt
  have hst := C23_ret (hf.fetches h)
    ((C26_load_iff hmtt).1.2 ⟨by rw [h.sp hf.plain]; exact hal, by rw [h.sp hf.plain]; exact hl s h.maps⟩)
  refine Go.of_steps hP h hst (R' := jump (moved R (R 24 + 4)) w) ?_ hf.plain.et hc
  intro n hn
  rw [h.withSp hf.plain _ _ hn, h.sp hf.plain]

theorem Go.jpr {r1 r2 : Bool} {p0 p1 p2 : U8} (hP : Closed pf P) (h : Shows fx s R devs cyc)
    (hf : Fetched pf fx R devs (instrWord 0x0E false r1 r2 p0 p1 p2)) (hpos : p0.toNat < 128)
    (hc : ∀ s', Shows fx s' (jump R (R 22 + BitVec.ofNat 32 (p0.toNat * 256 + p1.toNat))) devs (cyc + 1) → P s' (R 22)) :
    P s a := by
  have hst := C24_jpr (hf.fetches h) (h.val2 hf.plain (isReg := false) (p := p0) (q := p1) (by simp))
  have h1 := p1.isLt
  have hv : (opVal2 R false p0 p1).toNat = p0.toNat * 256 + p1.toNat := by
    unfold opVal2
    rw [if_neg (by decide), BitVec.toNat_ofNat]
    omega
  dsimp only at hst
  rw [hv, Nat.mod_eq_of_lt (by omega), if_pos (by omega), show s.regs.pc = R 22 from h.regs 22 (by decide)] at hst
  refine Go.of_steps hP h hst (R' := jump R (R 22 + BitVec.ofNat 32 (p0.toNat * 256 + p1.toNat))) ?_ hf.plain.et hc
  intro n hn
  rw [show ∀ x, ({ s.regs with pc := x } : Regs) = setReg s.regs 22 x from fun _ => rfl, setReg_all _ _ (by decide) hn, h.regs n hn]
  unfold jump
  have : BitVec.ofInt 32 (((R 22).toNat : Int) + ((p0.toNat * 256 + p1.toNat : Nat) : Int)) =
      R 22 + BitVec.ofNat 32 (p0.toNat * 256 + p1.toNat) := by
    rw [← Int.natCast_add, BitVec.ofInt_natCast, BitVec.ofNat_add]
    congr 1
    simp
  rw [show ((p0.toNat * 256 + p1.toNat : Nat) : Int) % 65536 = ((p0.toNat * 256 + p1.toNat : Nat) : Int) by omega, this]

end Lrvm.Prog
