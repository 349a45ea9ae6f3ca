import Verif.Props.Stack
import Verif.Spec.Log
import Verif.Lemmas.Devices

/-!
# What an instruction leaves alone: C94
-/

namespace Lrvm

open Spec

variable {D : Type} [Bus D] {pf : Profile}

/-! ## Specification -/

/-- The registers an instruction is documented to change, besides the program counter (`docs/Architecture.md`,
"Instructions"): the ones it names as destinations, the flags for the arithmetic, bitwise and compare instructions, the mode
for LSM, `avr` for LEA, the stack pointer of the current mode for PUSH, POP and CALL. -/
def footprint (r : Regs) (w : Word) : List Nat :=
  destinations w ++
  (if 0x03 ≤ opcode w ∧ opcode w ≤ 0x0D then [0x17] else []) ++
  (if opcode w = 0x0F then [0x1F] else []) ++
  (if opcode w = 0x15 then [0x15] else []) ++
  (if opcode w = 0x19 ∨ opcode w = 0x1A ∨ opcode w = 0x1B then [if supervisor r then 0x18 else 0x19] else [])

/-- From `devs` to `devs'`, the components only received requests that `allowed` accepts. -/
def Received (allowed : Request → Prop) (devs devs' : List (Logged D)) : Prop :=
  devs'.length = devs.length ∧
  ∀ (id : Nat) (d d' : Logged D), devs[id]? = some d → devs'[id]? = some d' → ∃ l, d'.log = d.log ++ l ∧ ∀ q ∈ l, allowed q

/-- A request is in keeping with the instruction `w`: anything reads (to fetch, to load, to translate addresses); only WSA, WEA,
SRM, PUSH and CALL write; only RESET resets. -/
def InKeeping (w : Word) : Request → Prop
  | .read _ => True
  | .write _ _ => opcode w ∈ [0x16, 0x17, 0x18, 0x19, 0x1B]
  | .reset => opcode w = 0x1F

/-! ## Registers -/

/-- `footprint` with both stack pointers. -/
def wideFootprint (f : Fields) : List Nat :=
  (destRegs f).map BitVec.toNat ++
  (if 0x03 ≤ f.opcode.toNat ∧ f.opcode.toNat ≤ 0x0D then [0x17] else []) ++
  (if f.opcode.toNat = 0x0F then [0x1F] else []) ++
  (if f.opcode.toNat = 0x15 then [0x15] else []) ++
  (if f.opcode.toNat = 0x19 ∨ f.opcode.toNat = 0x1A ∨ f.opcode.toNat = 0x1B then [0x18, 0x19] else [])

theorem reg_af (r : Regs) (v : Word) {c : Nat} (hc : c < 32) (h : c ≠ 0x17) : reg { r with af := v } c = reg r c :=
  reg_setReg_ne r 0x17 c v (by decide) hc (fun h' => h h'.symm)

theorem reg_pc (r : Regs) (v : Word) {c : Nat} (hc : c < 32) (h : c ≠ 0x16) : reg { r with pc := v } c = reg r c :=
  reg_setReg_ne r 0x16 c v (by decide) hc (fun h' => h h'.symm)

theorem reg_smt (r : Regs) (v : Word) {c : Nat} (hc : c < 32) (h : c ≠ 0x1F) : reg { r with smt := v } c = reg r c :=
  reg_setReg_ne r 0x1F c v (by decide) hc (fun h' => h h'.symm)

theorem reg_avr (r : Regs) (v : Word) {c : Nat} (hc : c < 32) (h : c ≠ 0x15) : reg { r with avr := v } c = reg r c :=
  reg_setReg_ne r 0x15 c v (by decide) hc (fun h' => h h'.symm)

theorem reg_ssp (r : Regs) (v : Word) {c : Nat} (hc : c < 32) (h : c ≠ 0x18) : reg { r with ssp := v } c = reg r c :=
  reg_setReg_ne r 0x18 c v (by decide) hc (fun h' => h h'.symm)

theorem reg_usp (r : Regs) (v : Word) {c : Nat} (hc : c < 32) (h : c ≠ 0x19) : reg { r with usp := v } c = reg r c :=
  reg_setReg_ne r 0x19 c v (by decide) hc (fun h' => h h'.symm)

theorem reg_et (r : Regs) (v : Word) {c : Nat} (hc : c < 32) (h : c ≠ 0x1A) : reg { r with et := v } c = reg r c :=
  reg_setReg_ne r 0x1A c v (by decide) hc (fun h' => h h'.symm)

theorem reg_trap (r : Regs) (code data : Nat) {c : Nat} (hc : c < 32) (h1 : c ≠ 0x1A) (h2 : c ≠ 0x16) (h3 : c ≠ 0x1F) :
    reg (trap r code data) c = reg r c := by
  unfold trap
  refine (reg_smt { { r with et := _ } with pc := r.ev } 1 hc h3).trans ?_
  refine (reg_pc { r with et := _ } r.ev hc h2).trans ?_
  exact reg_et r _ hc h1

theorem Eff.footprint {f : Fields} {t u : Machine D} (h : Eff pf f t u) (hop : f.opcode.toNat ≠ 0x1F)
    (hop' : f.opcode.toNat ≠ 0x10) {c : Nat} (hc : c < 32) (hpc : c ≠ 0x16) (hn : c ∉ wideFootprint f) :
    reg u.regs c = reg t.regs c := by
  unfold wideFootprint at hn
  simp only [List.mem_append, not_or] at hn
  obtain ⟨⟨⟨⟨hn1, hn2⟩, hn3⟩, hn4⟩, hn5⟩ := hn
  cases h with
  | busRead _ hr => rw [memRead_frame hr]
  | busWrite _ hr => rw [memWrite_frame hr]
  | devReset h _ => exact absurd h hop
  | cpuReset h => exact absurd h hop
  | itr _ h => exact absurd h hop'
  | halt _ => rfl
  | sp v hs =>
    simp only [List.mem_cons, List.not_mem_nil, or_false] at hs
    rw [if_pos hs] at hn5
    simp only [List.mem_cons, List.not_mem_nil, or_false, not_or] at hn5
    unfold Machine.setSp
    split
    · exact reg_ssp _ _ hc hn5.1
    · exact reg_usp _ _ hc hn5.2
  | flags r c' o hs =>
    have : 0x03 ≤ f.opcode.toNat ∧ f.opcode.toNat ≤ 0x0D := by
      simp only [List.mem_cons, List.not_mem_nil, or_false] at hs; omega
    rw [if_pos this] at hn2
    exact reg_af _ _ hc (fun h' => hn2 (by rw [h']; exact List.mem_singleton.2 rfl))
  | jump v _ => exact reg_pc _ _ hc hpc
  | skip _ => exact reg_pc _ _ hc hpc
  | lsm v hs _ =>
    rw [if_pos hs] at hn3
    refine (reg_smt { t.regs with pc := v } 0 hc (fun h' => hn3 (by rw [h']; exact List.mem_singleton.2 rfl))).trans ?_
    exact reg_pc _ _ hc hpc
  | avr v hs =>
    rw [if_pos hs] at hn4
    exact reg_avr _ _ hc (fun h' => hn4 (by rw [h']; exact List.mem_singleton.2 rfl))
  | regWrite hd _ _ _ _ hw =>
    obtain ⟨hlt, hr⟩ := write_setReg hw
    subst hr
    refine reg_setReg_ne _ _ _ _ hlt hc (fun h' => hn1 ?_)
    rw [← h']
    exact List.mem_map.2 ⟨_, hd, rfl⟩

theorem Effs.footprint {f : Fields} {t u : Machine D} (h : Effs pf f t u) (hop : f.opcode.toNat ≠ 0x1F)
    (hop' : f.opcode.toNat ≠ 0x10) {c : Nat} (hc : c < 32) (hpc : c ≠ 0x16) (hn : c ∉ wideFootprint f) :
    reg u.regs c = reg t.regs c :=
  h.inv (P := fun u => reg u.regs c = reg t.regs c) rfl fun _ _ ih he => (he.footprint hop hop' hc hpc hn).trans ih

theorem wide_register {s s' : Machine D} {w : Word} {devs : List D} {c : Nat} (hf : Fetches pf s w devs)
    (hop : opcode w ≠ 0x1F) (h : next pf s = some s') (hc : c < 32) (hpc : c ≠ 0x16) (hn : c ∉ wideFootprint (fieldsOf w)) :
    reg s'.regs c = reg s.regs c ∨
    (c = 0x1A ∨ c = 0x1F) ∧ ∃ r code data, code ∈ exceptionCodes ∧ data < 65536 ∧ s'.regs = trap r code data := by
  rw [← fieldsOf_opcode] at hop
  rcases next_inv h hf.1 with ⟨dv, c', d, _, ha, _, _⟩ | ⟨w', dv, hf', _, hr⟩
  · rw [(fetches_iff.mp hf).2] at ha; cases ha
  have heq := (fetches_iff.mp hf).2.symm.trans (fetches_iff.mp hf').2
  injection heq with h1 h2; subst h1 h2
  by_cases h10 : (fieldsOf w).opcode.toNat = 0x10
  · have key : ∃ code data, s'.regs = trap s.regs code data ∧ code ∈ exceptionCodes ∧ data < 65536 := by
      rcases hr with ⟨t, c', d, hrun, he, hc', rfl⟩ | ⟨t, hrun, he, rfl⟩
      · rw [runInstr_itr h10] at hrun
        rcases execItr_eq (atExec s devs) (fieldsOf w) with ⟨v, _, hv⟩ | ⟨_, _, hv⟩
        · rw [hv] at hrun; cases hrun
        · rw [hv] at hrun; injection hrun with hrun
          refine ⟨_, _, by rw [← hrun]; exact exception_regs .., ?_, BitVec.isLt _⟩
          cases supervisor (atExec s devs).regs <;> decide
      · rw [runInstr_itr h10] at hrun
        rcases execItr_eq (atExec s devs) (fieldsOf w) with ⟨v, _, hv⟩ | ⟨_, _, hv⟩
        · rw [hv] at hrun
          injection hrun with _ hrun
          have hcp : t.changedPc = true := by rw [← hrun]; rfl
          refine ⟨_, _, by rw [if_pos hcp, ← hrun]; exact exception_regs .., by decide, BitVec.isLt _⟩
        · rw [hv] at hrun; cases hrun
    obtain ⟨code, data, hk, hk1, hk2⟩ := key
    by_cases h3 : c = 0x1A ∨ c = 0x1F
    · exact .inr ⟨h3, _, _, _, hk1, hk2, hk⟩
    · left
      rw [hk]
      exact reg_trap _ _ _ hc (fun h' => h3 (.inl h')) hpc (fun h' => h3 (.inr h'))
  · rcases hr with ⟨t, c', d, hrun, he, hc', rfl⟩ | ⟨t, hrun, he, rfl⟩
    · have hk := exception_regs t c' d
      by_cases h3 : c = 0x1A ∨ c = 0x1F
      · exact .inr ⟨h3, _, _, _, faultCodes_doc c' hc', d.isLt, hk⟩
      · left
        rw [hk]
        refine (reg_trap _ _ _ hc (fun h' => h3 (.inl h')) hpc (fun h' => h3 (.inr h'))).trans ?_
        exact he.footprint hop h10 hc hpc hn
    · left
      have := he.footprint hop h10 hc hpc hn
      split
      · exact this
      · exact (reg_pc _ _ hc hpc).trans this

/-- **C94**, registers: whatever word is fetched (an instruction or not), unless it is a RESET, the step leaves every register
that is not `pc` and not one the instruction is documented to change as it was, even if an exception is raised: only `et` and
`smt` then change, as C06 says. -/
theorem C94_registers {s s' : Machine D} {w : Word} {devs : List D} {c : Nat} (hf : Fetches pf s w devs)
    (hop : opcode w ≠ 0x1F) (h : next pf s = some s') (hc : c < 32) (hpc : c ≠ 0x16) (hn : c ∉ footprint s.regs w) :
    reg s'.regs c = reg s.regs c ∨
    (c = 0x1A ∨ c = 0x1F) ∧ ∃ r code data, code ∈ exceptionCodes ∧ data < 65536 ∧ s'.regs = trap r code data := by
  by_cases hw : c ∈ wideFootprint (fieldsOf w)
  · left
    unfold wideFootprint at hw
    unfold footprint at hn
    rw [destRegs_eq, fieldsOf_opcode] at hw
    simp only [List.mem_append, not_or] at hn hw
    obtain ⟨⟨⟨⟨hn1, hn2⟩, hn3⟩, hn4⟩, hn5⟩ := hn
    rcases hw with (((hw | hw) | hw) | hw) | hw
    · exact absurd hw hn1
    · exact absurd hw hn2
    · exact absurd hw hn3
    · exact absurd hw hn4
    · by_cases hs : opcode w = 0x19 ∨ opcode w = 0x1A ∨ opcode w = 0x1B
      · rw [if_pos hs] at hn5 hw
        cases hsv : supervisor s.regs with
        | true =>
          rw [hsv] at hn5
          have h19 : c = 0x19 := by
            simp only [List.mem_cons, List.not_mem_nil, or_false, if_true] at hn5 hw
            omega
          subst h19
          refine C35_supervisor_keeps_usp hsv hf ?_ h
          rcases hs with hs | hs | hs
          · exact .inl hs
          · refine .inr (.inr ⟨hs, fun hb => hn1 ?_⟩)
            unfold destinations
            rw [if_pos (by rw [hs]; decide), hb]
            exact List.mem_singleton.2 rfl
          · exact .inr (.inl hs)
        | false =>
          rw [hsv] at hn5
          have h18 : c = 0x18 := by
            simp only [List.mem_cons, List.not_mem_nil, or_false, Bool.false_eq_true, if_false] at hn5 hw
            omega
          subst h18
          refine C35_userland_keeps_ssp hsv hf ?_ h
          simp only [List.mem_cons, List.not_mem_nil, or_false]; exact hs
      · rw [if_neg hs] at hw; cases hw
  · exact wide_register hf hop h hc hpc hw

/-- `add a2, 5` on the example machine: `a3` is not in the footprint, `a2` and `af` are. -/
example : Fetches .debug (Demo.start [0x18020005]) 0x18020005 (Demo.devices [0x18020005]) ∧
    footprint (Demo.start [0x18020005]).regs 0x18020005 = [2, 0x17] ∧
    ∃ s', next .debug (Demo.start [0x18020005]) = some s' ∧ reg s'.regs 2 = 5 := ⟨⟨rfl, rfl⟩, by decide, _, rfl, rfl⟩

/-! ## Requests -/

theorem Received.refl (allowed : Request → Prop) (devs : List (Logged D)) : Received allowed devs devs := by
  refine ⟨rfl, fun id d d' h h' => ⟨[], ?_, fun q hq => (nomatch hq)⟩⟩
  rw [h] at h'; injection h' with h'; rw [h', List.append_nil]

theorem Received.trans {allowed : Request → Prop} {a b c : List (Logged D)} (h1 : Received allowed a b)
    (h2 : Received allowed b c) : Received allowed a c := by
  refine ⟨h2.1.trans h1.1, fun id d d' h h' => ?_⟩
  have hlt : id < b.length := by rw [h1.1]; exact (List.getElem?_eq_some_iff.mp h).1
  obtain ⟨l1, e1, f1⟩ := h1.2 id d b[id] h (List.getElem?_eq_getElem hlt)
  obtain ⟨l2, e2, f2⟩ := h2.2 id b[id] d' (List.getElem?_eq_getElem hlt) h'
  refine ⟨l1 ++ l2, by rw [e2, e1, List.append_assoc], fun q hq => ?_⟩
  rcases List.mem_append.mp hq with hq | hq
  · exact f1 q hq
  · exact f2 q hq

theorem Received.set {allowed : Request → Prop} {devs : List (Logged D)} {id : Nat} {d e : Logged D}
    (hd : devs[id]? = some d) {q : Request} (hl : e.log = d.log ++ [q]) (hq : allowed q) :
    Received allowed devs (devs.set id e) := by
  refine ⟨List.length_set, fun i x y h h' => ?_⟩
  rw [List.getElem?_set] at h'
  split at h'
  · next hi =>
    subst hi
    split at h'
    · injection h' with h'
      rw [hd] at h; injection h with h
      subst h h'
      exact ⟨[q], hl, fun p hp => by rw [List.mem_singleton.mp hp]; exact hq⟩
    · cases h'
  · exact (Received.refl allowed devs).2 i x y h h'

theorem devRead_received {allowed : Request → Prop} (hok : ∀ a, allowed (.read a)) {maps : List Mapping}
    {devs devs' : List (Logged D)} {a w : Word} {ex ex' : U16}
    (h : devRead pf maps devs a ex = some (w, ex', devs')) : Received allowed devs devs' := by
  unfold devRead at h
  simp only [Option.bind_eq_bind, Option.bind_eq_some_iff] at h
  obtain ⟨_, _, o, ho, h⟩ := h
  cases o with
  | none => simp at h; rw [← h.2.2]; exact .refl _ _
  | some m =>
    simp only [Option.bind_eq_some_iff] at h
    obtain ⟨off, hoff, r, hr, h⟩ := h
    cases r with
    | none => simp at h
    | some r =>
      simp at h; subst h
      unfold bridgeRead at hr
      simp only [Option.bind_eq_bind, Option.bind_eq_some_iff] at hr
      obtain ⟨⟨⟩, hal, hr⟩ := hr
      split at hr
      · cases hr
      · next d hdd =>
        simp only [Option.bind_eq_some_iff] at hr
        obtain ⟨⟨d', w', x'⟩, hbr, hr⟩ := hr
        injection hr with hr; injection hr with hr; injection hr with h1 hr; injection hr with h2 hr
        subst hr
        obtain ⟨p, _, hp⟩ := Option.map_eq_some_iff.mp hbr
        injection hp with hp _
        exact .set hdd (by rw [← hp]) (hok _)

theorem devWrite_received {allowed : Request → Prop} (hok : ∀ a v, allowed (.write a v)) {maps : List Mapping}
    {devs devs' : List (Logged D)} {a w : Word} {ex ex' : U16}
    (h : devWrite pf maps devs a w ex = some (ex', devs')) : Received allowed devs devs' := by
  unfold devWrite at h
  simp only [Option.bind_eq_bind, Option.bind_eq_some_iff] at h
  obtain ⟨_, _, o, ho, h⟩ := h
  cases o with
  | none => simp at h; rw [← h.2]; exact .refl _ _
  | some m =>
    simp only [Option.bind_eq_some_iff] at h
    obtain ⟨off, hoff, r, hr, h⟩ := h
    cases r with
    | none => simp at h
    | some r =>
      simp at h; subst h
      unfold bridgeWrite at hr
      simp only [Option.bind_eq_bind, Option.bind_eq_some_iff] at hr
      obtain ⟨⟨⟩, hal, hr⟩ := hr
      split at hr
      · cases hr
      · next d hdd =>
        simp only [Option.bind_eq_some_iff] at hr
        obtain ⟨⟨d', x'⟩, hbr, hr⟩ := hr
        injection hr with hr; injection hr with hr; injection hr with h1 hr
        subst hr
        obtain ⟨p, _, hp⟩ := Option.map_eq_some_iff.mp hbr
        injection hp with hp _
        exact .set hdd (by rw [← hp]) (hok _ _)

theorem bridgeReset_received {allowed : Request → Prop} (hok : allowed .reset) {devs devs' : List (Logged D)}
    {id : Nat} (h : bridgeReset devs id = some (some devs')) : Received allowed devs devs' := by
  unfold bridgeReset at h
  split at h
  · cases h
  · next d hdd =>
    simp only [Option.bind_eq_bind, Option.bind_eq_some_iff] at h
    obtain ⟨d', hr, h⟩ := h
    injection h with h; injection h with h; subst h
    obtain ⟨p, _, hp⟩ := Option.map_eq_some_iff.mp hr
    exact .set hdd (by rw [← hp]) hok

theorem transl_received {allowed : Request → Prop} (hok : ∀ a, allowed (.read a)) {maps : List Mapping}
    {r : Regs} {devs devs' : List (Logged D)} {v : Word} {x : Except (Option U16) Word}
    (h : transl pf r maps devs v = some (x, devs')) : Received allowed devs devs' := by
  unfold transl at h
  split at h
  · simp at h; rw [← h.2]; exact .refl _ _
  · simp only [Option.bind_eq_bind, Option.bind_eq_some_iff] at h
    obtain ⟨a, _, ⟨e, ex, d1⟩, hr, h⟩ := h
    have := devRead_received hok hr
    repeat' split at h
    all_goals (simp at h; rw [← h.2]; exact this)

theorem accRead_received {allowed : Request → Prop} (hok : ∀ a, allowed (.read a)) {maps : List Mapping}
    {r : Regs} {devs devs' : List (Logged D)} {v : Word} :
    (∀ w, accRead pf r maps devs v = .done w devs' → Received allowed devs devs') ∧
    (∀ c d, accRead pf r maps devs v = .fault c d devs' → Received allowed devs devs') := by
  unfold accRead accDo
  constructor <;> intro a
  · intro h
    repeat' split at h
    all_goals first
      | cases h; done
      | skip
    next ht _ _ _ _ hh _ =>
      injection h with h1 h2; subst h2; exact (transl_received hok ht).trans (devRead_received hok hh)
  · intro d h
    repeat' split at h
    all_goals first
      | cases h; done
      | skip
    · injection h with h1 h2 h3; rw [← h3]; exact .refl _ _
    · next ht _ _ _ _ hh _ =>
        injection h with h1 h2 h3; subst h3; exact (transl_received hok ht).trans (devRead_received hok hh)
    · next ht => injection h with h1 h2 h3; subst h3; exact transl_received hok ht
    · next ht => injection h with h1 h2 h3; subst h3; exact transl_received hok ht

theorem Eff.received {w : Word} {t u : Machine (Logged D)} (h : Eff pf (fieldsOf w) t u) :
    Received (InKeeping w) t.devs u.devs := by
  cases h with
  | busRead _ hr =>
    rw [memRead_eq, Option.map_eq_some_iff] at hr
    obtain ⟨⟨x, y, z⟩, hdr, h⟩ := hr
    injection h with h1 h; injection h with h2 h; rw [← h]
    exact devRead_received (fun _ => trivial) hdr
  | busWrite h0 hr =>
    rw [memWrite_eq, Option.map_eq_some_iff] at hr
    obtain ⟨⟨x, z⟩, hdr, h⟩ := hr
    injection h with h1 h; rw [← h]
    rw [fieldsOf_opcode] at h0
    exact devWrite_received (fun _ _ => h0) hdr
  | devReset h0 hr => exact bridgeReset_received (allowed := InKeeping w) ((fieldsOf_opcode w).symm.trans h0) hr
  | cpuReset h => exact .refl _ _
  | itr _ h => exact .refl _ _
  | halt _ => exact .refl _ _
  | sp v hs => rw [(Machine.setSp_frame t v).1]; exact .refl _ _
  | flags r c' o hs => exact .refl _ _
  | jump v _ => exact .refl _ _
  | skip _ => exact .refl _ _
  | lsm v hs _ => exact .refl _ _
  | avr v hs => exact .refl _ _
  | regWrite hd _ _ _ _ hw => exact .refl _ _

/-- **C94**, components: during a step the components receive only requests in keeping with the instruction fetched: no write
unless it is WSA, WEA, SRM, PUSH or CALL, and no reset unless it is RESET. -/
theorem C94_requests {s s' : Machine (Logged D)} {w : Word} {devs : List (Logged D)} (hf : Fetches pf s w devs)
    (h : next pf s = some s') : Received (InKeeping w) s.devs s'.devs := by
  rcases next_inv h hf.1 with ⟨dv, c', d, _, ha, _, _⟩ | ⟨w', dv, hf', _, hr⟩
  · rw [(fetches_iff.mp hf).2] at ha; cases ha
  have heq := (fetches_iff.mp hf).2.symm.trans (fetches_iff.mp hf').2
  injection heq with h1 h2; subst h1 h2
  have h0 : Received (InKeeping w) s.devs devs := (accRead_received (fun _ => trivial)).1 _ (fetches_iff.mp hf).2
  have key : ∀ t, Effs pf (fieldsOf w) (atExec s devs) t → Received (InKeeping w) s.devs t.devs := fun t he =>
    he.inv (P := fun t => Received (InKeeping w) s.devs t.devs) h0 fun _ _ ih e => ih.trans e.received
  rcases hr with ⟨t, c', d, hrun, he, hc', rfl⟩ | ⟨t, hrun, he, rfl⟩
  · exact key t he
  · split <;> exact key t he

/-- **C94**, components: when no instruction could be fetched, the components only received reads. -/
theorem C94_requests_fault {s s' : Machine (Logged D)} (hrun : s.halted = false) (hf : ∀ w devs, ¬ Fetches pf s w devs)
    (h : next pf s = some s') : Received (fun q => ∃ a, q = .read a) s.devs s'.devs := by
  rcases next_inv h hrun with ⟨dv, c', d, _, ha, _, rfl⟩ | ⟨w', dv, hf', _, hr⟩
  · exact (accRead_received (fun a => ⟨a, rfl⟩)).2 _ _ ha
  · exact absurd hf' (hf _ _)

/-- **C94**, components: an instruction that is not one of the memory instructions (LSA to CALL) and not RESET makes no
request at all besides its own fetch. -/
theorem C94_no_request {s s' : Machine D} {w : Word} {devs : List D} (hf : Fetches pf s w devs)
    (hop : opcode w < 0x14 ∨ 0x1B < opcode w) (hop' : opcode w ≠ 0x1F) (h : next pf s = some s') : s'.devs = devs := by
  rw [← fieldsOf_opcode] at hop hop'
  rcases next_inv h hf.1 with ⟨dv, c', d, _, ha, _, _⟩ | ⟨w', dv, hf', _, hr⟩
  · rw [(fetches_iff.mp hf).2] at ha; cases ha
  have heq := (fetches_iff.mp hf).2.symm.trans (fetches_iff.mp hf').2
  injection heq with h1 h2; subst h1 h2
  have key : ∀ t, Effs pf (fieldsOf w) (atExec s devs) t → t.devs = devs := fun t he =>
    he.inv (P := fun t => t.devs = devs) rfl fun t u ih e => by
      cases e with
      | busRead h0 hr =>
        simp only [memOps, List.mem_cons, List.not_mem_nil, or_false] at h0; omega
      | busWrite h0 hr =>
        simp only [storeOps, List.mem_cons, List.not_mem_nil, or_false] at h0; omega
      | devReset h0 hr => exact absurd h0 hop'
      | cpuReset h => exact absurd h hop'
      | sp v hs => rw [(Machine.setSp_frame t v).1]; exact ih
      | _ => exact ih
  rcases hr with ⟨t, c', d, hrun, he, hc', rfl⟩ | ⟨t, hrun, he, rfl⟩
  · exact key t he
  · split <;> exact key t he

/-- The example board with components that remember their requests. -/
def loggedDemo (prog : List Word) : Machine (Logged Demo.Dev) where
  regs := (Demo.start prog).regs
  devs := (Demo.devices prog).map fresh
  hwbCache := (Demo.start prog).hwbCache
  memCache := (Demo.start prog).memCache
  mappings := (Demo.start prog).mappings
  cycles := 0
  halted := false
  changedPc := true

/-- The store `0xB0480007` reads the ROM (its own fetch), then writes the RAM. -/
example : (∃ devs, Fetches .debug (loggedDemo [0xB0480007]) 0xB0480007 devs) ∧
    ∃ s', next .debug (loggedDemo [0xB0480007]) = some s' ∧ s'.devs.map Logged.log = [[.read 0], [.write 8 7]] :=
  ⟨⟨_, rfl, rfl⟩, _, rfl, rfl⟩

/-- `add a2, 5` makes no request besides its fetch; an unaligned `pc` prevents the fetch and requests nothing. -/
example : (∃ devs s', Fetches .debug (loggedDemo [0x18020005]) 0x18020005 devs ∧
      next .debug (loggedDemo [0x18020005]) = some s' ∧ s'.devs = devs ∧ devs.map Logged.log = [[.read 0], []]) ∧
    ∃ s', next .debug { loggedDemo [] with regs := { Regs.zero with pc := 2 } } = some s' ∧ s'.devs.map Logged.log = [[], []] :=
  ⟨⟨_, _, ⟨rfl, rfl⟩, rfl, rfl, rfl⟩, _, rfl, rfl⟩

end Lrvm
