import Verif.Spec.Builds
import Verif.Model.Board
import Verif.Model.Tools.Lasm
import Verif.Model.Tools.Prepare
import Verif.Model.Devices.Printing

/-!
# Debug builds and release builds, function by function
-/

namespace Lrvm

open Spec

variable {D : Type} [Bus D] {pf : Profile}

theorem Agrees.rfl' {a : Option α} : Agrees a a := fun _ h => h

theorem Agrees.bind {a b : Option α} {f g : α → Option β} (h : Agrees a b) (k : ∀ x, Agrees (f x) (g x)) :
    Agrees (a >>= f) (b >>= g) := by
  intro y hy
  cases a with
  | none => cases hy
  | some x => rw [h x rfl]; exact k x y hy

theorem add_agrees (a b : BitVec n) : Agrees (Profile.debug.add a b) (Profile.release.add a b) := by
  intro x h
  simp only [Profile.add] at *
  split at h <;> simp_all

theorem sub_agrees (a b : BitVec n) : Agrees (Profile.debug.sub a b) (Profile.release.sub a b) := by
  intro x h
  simp only [Profile.sub] at *
  split at h <;> simp_all

theorem mul_agrees (a b : BitVec n) : Agrees (Profile.debug.mul a b) (Profile.release.mul a b) := by
  intro x h
  simp only [Profile.mul] at *
  split at h <;> simp_all

theorem oneShl_agrees (k : Word) : Agrees (Profile.debug.oneShl k) (Profile.release.oneShl k) := by
  intro x h
  simp only [Profile.oneShl] at *
  split at h
  · rename_i hk; rw [Nat.mod_eq_of_lt hk]; exact h
  · cases h

theorem subUsize_agrees {a : Nat} (b : Nat) (ha : a < 2 ^ 64) :
    Agrees (Profile.debug.subUsize a b) (Profile.release.subUsize a b) := by
  intro x h
  simp only [Profile.subUsize] at *
  split at h
  · injection h with h
    subst h
    congr 1
    omega
  · cases h

theorem endAddr_agrees (m : Mapping) : Agrees (m.endAddr .debug) (m.endAddr .release) :=
  Agrees.bind (add_agrees _ _) fun _ => sub_agrees _ _

theorem findMapping_agrees (ms : List Mapping) (a : Word) :
    Agrees (findMapping .debug ms a) (findMapping .release ms a) := by
  induction ms with
  | nil => exact Agrees.rfl'
  | cons m ms ih =>
    unfold findMapping
    split
    · refine Agrees.bind (endAddr_agrees m) fun e => ?_
      split
      · exact Agrees.rfl'
      · exact ih
    · exact ih

theorem findOverlap_agrees (a b : Word) (ms : List Mapping) :
    Agrees (findOverlap .debug a b ms) (findOverlap .release a b ms) := by
  induction ms with
  | nil => exact Agrees.rfl'
  | cons m ms ih =>
    unfold findOverlap
    split
    · refine Agrees.bind (endAddr_agrees m) fun e => ?_
      split
      · exact Agrees.rfl'
      · exact ih
    · exact ih

theorem memRead_agrees (s : Machine D) (a : Word) (ex : U16) :
    Agrees (memRead .debug s a ex) (memRead .release s a ex) := by
  unfold memRead
  refine Agrees.bind Agrees.rfl' fun _ => Agrees.bind (findMapping_agrees _ _) fun m => ?_
  split
  · exact Agrees.bind (sub_agrees _ _) fun _ => Agrees.rfl'
  · exact Agrees.rfl'

theorem memWrite_agrees (s : Machine D) (a w : Word) (ex : U16) :
    Agrees (memWrite .debug s a w ex) (memWrite .release s a w ex) := by
  unfold memWrite
  refine Agrees.bind Agrees.rfl' fun _ => Agrees.bind (findMapping_agrees _ _) fun m => ?_
  split
  · exact Agrees.bind (sub_agrees _ _) fun _ => Agrees.rfl'
  · exact Agrees.rfl'

/-- Compare two computations step by step, with the given comparisons of their parts. -/
syntax "agree" "[" term,* "]" : tactic

macro_rules
  | `(tactic| agree []) => `(tactic| repeat' (first
      | exact Agrees.rfl' | exact add_agrees _ _ | exact sub_agrees _ _ | exact mul_agrees _ _
      | exact endAddr_agrees _ | exact findOverlap_agrees _ _ _ | exact oneShl_agrees _
      | (refine Agrees.bind ?_ fun _ => ?_) | split))
  | `(tactic| agree [$t:term]) => `(tactic| repeat' (first
      | exact Agrees.rfl' | exact add_agrees _ _ | exact sub_agrees _ _ | exact mul_agrees _ _
      | exact endAddr_agrees _ | exact findOverlap_agrees _ _ _ | exact oneShl_agrees _ | exact $t
      | (refine Agrees.bind ?_ fun _ => ?_) | split))

theorem internalMap_agrees (s : Machine D) (a : Word) (e : Option Word) (i : Nat) :
    Agrees (internalMap .debug s a e i) (internalMap .release s a e i) := by
  unfold internalMap
  split
  · exact Agrees.rfl'
  refine Agrees.bind (add_agrees _ _) fun t => Agrees.bind (sub_agrees _ _) fun d => ?_
  dsimp only
  agree []

theorem contigStep_agrees (acc : ContigAcc) (s : Machine D) (i : Nat) :
    Agrees (contigStep .debug acc s i) (contigStep .release acc s i) := by
  unfold contigStep map
  agree [internalMap_agrees _ _ _ _]

theorem contigLoop_agrees (acc : ContigAcc) (s : Machine D) (is : List Nat) :
    Agrees (contigLoop .debug acc s is) (contigLoop .release acc s is) := by
  induction is generalizing acc s with
  | nil => exact Agrees.rfl'
  | cons i is ih => exact Agrees.bind (contigStep_agrees _ _ _) fun _ => ih _ _

theorem mapContiguous_agrees (s : Machine D) (a : Word) (is : List Nat) :
    Agrees (mapContiguous .debug s a is) (mapContiguous .release s a is) :=
  Agrees.bind (contigLoop_agrees _ _ _) fun _ => Agrees.rfl'

theorem decodeEntry_agrees (s : Machine D) (a : Word) (k : MemAction) :
    Agrees (decodeEntry .debug s a k) (decodeEntry .release s a k) := by
  unfold decodeEntry
  agree [memRead_agrees _ _ _]

theorem translate_agrees (s : Machine D) (a : Word) (k : MemAction) :
    Agrees (translate .debug s a k) (translate .release s a k) := by
  unfold translate
  agree [decodeEntry_agrees _ _ _]

/-- The same for CPU actions: where the first does not panic, the second does the same. -/
def AgreesM (m m' : M D α) : Prop := ∀ s, m s ≠ .panic → m' s = m s

theorem AgreesM.rfl' {m : M D α} : AgreesM m m := fun _ _ => rfl

theorem AgreesM.bind {m m' : M D α} {f g : α → M D β} (h : AgreesM m m') (k : ∀ x, AgreesM (f x) (g x)) :
    AgreesM (m >>= f) (m' >>= g) := by
  intro s hs
  show M.bind m' g s = M.bind m f s
  have hs' : M.bind m f s ≠ .panic := hs
  unfold M.bind at *
  cases hm : m s with
  | ok a s1 =>
    rw [hm] at hs'
    rw [h s (by rw [hm]; intro hc; cases hc), hm]
    exact k a s1 hs'
  | ex s1 => rw [h s (by rw [hm]; intro hc; cases hc), hm]
  | panic => rw [hm] at hs'; exact absurd rfl hs'

theorem liftRes_agrees {a b : Res α} (h : Agrees a b) : AgreesM (D := D) (liftRes a) (liftRes b) := by
  intro s hs
  cases a with
  | none => exact absurd rfl hs
  | some x => rw [h x rfl]

theorem memDo_agrees (k : MemAction) (a : Word) {f g : Machine D → Word → U16 → Res (α × U16 × Machine D)}
    (h : ∀ s p e, Agrees (f s p e) (g s p e)) : AgreesM (memDo .debug k a f) (memDo .release k a g) := by
  refine AgreesM.bind AgreesM.rfl' fun v s hs => ?_
  have ht := translate_agrees s v k
  cases hd : translate .debug s v k with
  | none => simp only [hd] at hs; exact absurd rfl hs
  | some r =>
    rw [ht r hd]
    obtain ⟨r, s1⟩ := r
    cases r with
    | error e => cases e <;> rfl
    | ok p =>
      simp only [hd] at hs ⊢
      cases hf : f s1 p 0 with
      | none => simp only [hf] at hs; exact absurd rfl hs
      | some q => rw [h s1 p 0 q hf]

theorem cpuRead_agrees (a : Word) : AgreesM (D := D) (cpuRead .debug a) (cpuRead .release a) :=
  memDo_agrees _ _ fun _ _ _ => memRead_agrees _ _ _

theorem cpuExec_agrees (a : Word) : AgreesM (D := D) (cpuExec .debug a) (cpuExec .release a) :=
  memDo_agrees _ _ fun _ _ _ => memRead_agrees _ _ _

theorem cpuWrite_agrees (a w : Word) : AgreesM (D := D) (cpuWrite .debug a w) (cpuWrite .release a w) := by
  refine memDo_agrees _ _ fun s p e x hx => ?_
  have h := memWrite_agrees s p w e
  cases hd : memWrite .debug s p w e with
  | none => simp only [hd] at hx; cases hx
  | some r => rw [h r hd]; simp only [hd] at hx; exact hx

theorem flagTest_agrees (a b : Word) : Agrees (flagTest .debug a b) (flagTest .release a b) := by
  unfold flagTest
  agree []

theorem getHwInfo_agrees (w : Word) (i : Nat) :
    AgreesM (D := D) (getHwInfo .debug w i) (getHwInfo .release w i) := by
  intro s hs
  unfold getHwInfo at *
  split
  · rfl
  · rename_i cache hc
    simp only [hc] at hs
    dsimp only at hs ⊢
    split <;> try rfl
    rename_i h
    simp only [h] at hs
    split
    · rfl
    · rename_i m hm
      simp only [hm] at hs
      exact liftRes_agrees (endAddr_agrees m) s hs

macro "agreeM" : tactic => `(tactic| repeat' (first
      | with_reducible exact AgreesM.rfl' | with_reducible exact cpuRead_agrees _
      | with_reducible exact cpuWrite_agrees _ _ | with_reducible exact getHwInfo_agrees _ _
      | with_reducible exact liftRes_agrees (flagTest_agrees _ _)
      | with_reducible exact liftRes_agrees (add_agrees _ _)
      | (refine AgreesM.bind ?_ fun _ => ?_) | split))

theorem execIf2_agrees (f : Fields) : AgreesM (D := D) (execIf2 .debug f) (execIf2 .release f) := by
  unfold execIf2
  agreeM

theorem execLsa_agrees (f : Fields) : AgreesM (D := D) (execLsa .debug f) (execLsa .release f) := by
  unfold execLsa
  agreeM

theorem execLea_agrees (f : Fields) : AgreesM (D := D) (execLea .debug f) (execLea .release f) := by
  unfold execLea
  agreeM

theorem execWsa_agrees (f : Fields) : AgreesM (D := D) (execWsa .debug f) (execWsa .release f) := by
  unfold execWsa
  agreeM

theorem execWea_agrees (f : Fields) : AgreesM (D := D) (execWea .debug f) (execWea .release f) := by
  unfold execWea
  agreeM

theorem execSrm_agrees (f : Fields) : AgreesM (D := D) (execSrm .debug f) (execSrm .release f) := by
  unfold execSrm
  agreeM

theorem execPush_agrees (f : Fields) : AgreesM (D := D) (execPush .debug f) (execPush .release f) := by
  unfold execPush
  agreeM

theorem execPop_agrees (f : Fields) : AgreesM (D := D) (execPop .debug f) (execPop .release f) := by
  unfold execPop
  agreeM

theorem execCall_agrees (f : Fields) : AgreesM (D := D) (execCall .debug f) (execCall .release f) := by
  unfold execCall
  agreeM

theorem execHwd_agrees (f : Fields) : AgreesM (D := D) (execHwd .debug f) (execHwd .release f) := by
  unfold execHwd
  agreeM

theorem runInstr_agrees (f : Fields) : AgreesM (D := D) (runInstr .debug f) (runInstr .release f) := by
  unfold runInstr
  generalize f.opcode.toNat = n
  match n with
  | 0x13 => exact execIf2_agrees f
  | 0x14 => exact execLsa_agrees f
  | 0x15 => exact execLea_agrees f
  | 0x16 => exact execWsa_agrees f
  | 0x17 => exact execWea_agrees f
  | 0x18 => exact execSrm_agrees f
  | 0x19 => exact execPush_agrees f
  | 0x1A => exact execPop_agrees f
  | 0x1B => exact execCall_agrees f
  | 0x1C => exact execHwd_agrees f
  | 0x00 | 0x01 | 0x02 | 0x03 | 0x04 | 0x05 | 0x06 | 0x07 | 0x08 | 0x09 | 0x0A | 0x0B | 0x0C | 0x0D | 0x0E | 0x0F
  | 0x10 | 0x11 | 0x12 | 0x1D | 0x1E | 0x1F => exact AgreesM.rfl'
  | _ + 0x20 => exact AgreesM.rfl'

theorem execWord_agrees (w : Word) (s : Machine D) : Agrees (execWord .debug w s) (execWord .release w s) := by
  intro x hx
  unfold execWord at *
  have h := runInstr_agrees (fieldsOf w) { s with changedPc := false }
  cases hd : runInstr .debug (fieldsOf w) { s with changedPc := false } with
  | panic => simp only [hd] at hx; cases hx
  | ex s1 => rw [h (by rw [hd]; intro hc; cases hc), hd]; simp only [hd] at hx; exact hx
  | ok u s1 => rw [h (by rw [hd]; intro hc; cases hc), hd]; simp only [hd] at hx; exact hx

theorem next_agrees (s : Machine D) : Agrees (next .debug s) (next .release s) := by
  intro x hx
  unfold next at *
  by_cases hh : s.halted = true
  · rw [if_pos hh] at *; exact hx
  rw [if_neg hh] at *
  dsimp only at *
  have h := cpuExec_agrees (D := D) s.regs.pc { s with cycles := s.cycles + 1 }
  cases hd : cpuExec .debug s.regs.pc { s with cycles := s.cycles + 1 } with
  | panic => simp only [hd] at hx; cases hx
  | ex s1 => rw [h (by rw [hd]; intro hc; cases hc), hd]; simp only [hd] at hx; exact hx
  | ok u s1 =>
    rw [h (by rw [hd]; intro hc; cases hc), hd]
    simp only [hd] at hx
    exact execWord_agrees u s1 x hx

theorem agrees_map {a b : Option α} (f : α → β) (h : Agrees a b) : Agrees (a.map f) (b.map f) := by
  intro y hy
  cases a with
  | none => cases hy
  | some x => rw [h x rfl]; exact hy

theorem hostStep_agrees (s : Machine D) (op : HostOp) : Agrees (hostStep .debug s op) (hostStep .release s op) := by
  cases op
  case next => exact next_agrees s
  case map => exact agrees_map _ (internalMap_agrees _ _ _ _)
  case mapAbs => exact agrees_map _ (internalMap_agrees _ _ _ _)
  case mapContiguous => exact agrees_map _ (mapContiguous_agrees _ _ _)
  case memRead => exact agrees_map _ (memRead_agrees _ _ _)
  case memWrite => exact agrees_map _ (memWrite_agrees _ _ _ _)
  all_goals exact Agrees.rfl'

theorem hostRun_agrees (ops : List HostOp) (s : Machine D) :
    Agrees (hostRun .debug ops s) (hostRun .release ops s) := by
  induction ops generalizing s with
  | nil => exact Agrees.rfl'
  | cons op ops ih => exact Agrees.bind (hostStep_agrees s op) fun s' => ih s'

theorem nextN_agrees (n : Nat) (s : Machine D) : Agrees (nextN .debug n s) (nextN .release n s) := by
  induction n generalizing s with
  | zero => exact Agrees.rfl'
  | succ n ih => exact Agrees.bind (next_agrees s) fun s' => ih s'

theorem createCaches_agrees (hm : SameMetadata D) (i : Nat) (devs : List D) :
    Agrees (createCaches .debug i devs) (createCaches .release i devs) := by
  induction devs generalizing i with
  | nil => exact Agrees.rfl'
  | cons d ds ih =>
    unfold createCaches createCache
    refine Agrees.bind Agrees.rfl' fun _ => Agrees.bind ?_ fun _ => Agrees.bind (ih _) fun _ => Agrees.rfl'
    exact Agrees.bind (hm d) fun m => Agrees.bind (add_agrees _ _) fun _ => Agrees.rfl'

theorem newBoard_agrees (hm : SameMetadata D) (devs : List D) :
    Agrees (newBoard .debug devs) (newBoard .release devs) := by
  unfold newBoard
  agree [createCaches_agrees hm _ _]

theorem prepareVm_agrees (hm : SameMetadata D) (devs : List D) :
    Agrees (prepareVm .debug devs) (prepareVm .release devs) := by
  unfold prepareVm
  refine Agrees.bind (newBoard_agrees hm devs) fun s => Agrees.bind (mapContiguous_agrees _ _ _) fun r => ?_
  agree []

theorem prepareReport_agrees (hm : SameMetadata D) (devs : List D) :
    Agrees (prepareReport .debug devs) (prepareReport .release devs) := by
  unfold prepareReport
  refine Agrees.bind (newBoard_agrees hm devs) fun s => Agrees.bind (mapContiguous_agrees _ _ _) fun r => ?_
  agree []

theorem runTurn_agrees (cfg : RunConfig) (s : Machine D) (h : runTurn .debug cfg s ≠ .panic) :
    runTurn .release cfg s = runTurn .debug cfg s := by
  unfold runTurn at *
  by_cases hh : (s.halted || limitExceeded cfg s) = true
  · rw [if_pos hh, if_pos hh]
  rw [if_neg hh] at h
  rw [if_neg hh, if_neg hh]
  cases hn : next .debug s with
  | none => rw [hn] at h; exact absurd rfl h
  | some s' => rw [next_agrees s s' hn]

theorem runLoop_agrees {cfg : RunConfig} {s : Machine D} {a : Word} {ls : List Text}
    {r : Option (Machine D × Word × Option ExWithMode × List Text)} (h : RunLoop .debug cfg s a ls r)
    (hr : r ≠ none) : RunLoop .release cfg s a ls r := by
  induction h with
  | exit ht => exact .exit (by rw [runTurn_agrees _ _ (by rw [ht]; intro hc; cases hc), ht])
  | again ht _ ih => exact .again (by rw [runTurn_agrees _ _ (by rw [ht]; intro hc; cases hc), ht]) (ih hr)
  | stop ht => exact .stop (by rw [runTurn_agrees _ _ (by rw [ht]; intro hc; cases hc), ht])
  | panic ht => exact absurd rfl hr

theorem runLoop_back {cfg : RunConfig} {s : Machine D} {a : Word} {ls : List Text}
    {r : Option (Machine D × Word × Option ExWithMode × List Text)} (h : RunLoop .release cfg s a ls r) :
    RunLoop .debug cfg s a ls r ∨ RunLoop .debug cfg s a ls none := by
  induction h with
  | @exit s a ls ht =>
    by_cases hp : runTurn .debug cfg s = .panic
    · exact .inr (.panic hp)
    · exact .inl (.exit (by rw [← runTurn_agrees _ _ hp, ht]))
  | @again s s' a ls l r ht _ ih =>
    by_cases hp : runTurn .debug cfg s = .panic
    · exact .inr (.panic hp)
    · have hd := ht
      rw [runTurn_agrees _ _ hp] at hd
      exact ih.imp (fun h => .again hd h) fun h => .again hd h
  | @stop s s' a ls l ex ht =>
    by_cases hp : runTurn .debug cfg s = .panic
    · exact .inr (.panic hp)
    · exact .inl (.stop (by rw [← runTurn_agrees _ _ hp, ht]))
  | @panic s a ls ht =>
    by_cases hp : runTurn .debug cfg s = .panic
    · exact .inr (.panic hp)
    · exact absurd (by rw [← runTurn_agrees _ _ hp, ht]) hp

theorem runVm_agrees {cfg : RunConfig} {s : Machine D} {r : Machine D × StoppedState × List Text}
    (h : RunVm .debug cfg s (some r)) : RunVm .release cfg s (some r) := by
  obtain ⟨e, he, hr⟩ := h
  refine ⟨e, runLoop_agrees he ?_, hr⟩
  rintro rfl
  cases hr

theorem runVm_back {cfg : RunConfig} {s : Machine D} {r : Option (Machine D × StoppedState × List Text)}
    (h : RunVm .release cfg s r) : RunVm .debug cfg s r ∨ RunVm .debug cfg s none := by
  obtain ⟨e, he, hr⟩ := h
  exact (runLoop_back he).imp (fun h => ⟨e, h, hr⟩) fun h => ⟨none, h, rfl⟩

theorem execVm_agrees (hm : SameMetadata D) {devs : List D} {cfg : RunConfig}
    {r : Machine D × StoppedState × List Text} (h : ExecVm .debug devs cfg (some r)) :
    ExecVm .release devs cfg (some r) := by
  unfold ExecVm at *
  cases hp : prepareVm .debug devs with
  | none => rw [hp] at h; cases h
  | some s => rw [prepareVm_agrees hm devs s hp]; rw [hp] at h; exact runVm_agrees h

theorem execVm_back (hm : SameMetadata D) {devs : List D} {cfg : RunConfig}
    {r : Option (Machine D × StoppedState × List Text)} (h : ExecVm .release devs cfg r) :
    ExecVm .debug devs cfg r ∨ ExecVm .debug devs cfg none := by
  unfold ExecVm at *
  cases hp : prepareVm .debug devs with
  | none => exact .inr rfl
  | some s => rw [prepareVm_agrees hm devs s hp] at h; exact runVm_back h

theorem toLasmSigned_agrees (v : RegOrLit2) : Agrees (v.toLasmSigned .debug) (v.toLasmSigned .release) := by
  intro x hx
  unfold RegOrLit2.toLasmSigned at *
  split <;> simp_all
  split <;> simp_all

theorem instr_toLasm_agrees (i : Instr) : Agrees (i.toLasm .debug) (i.toLasm .release) := by
  cases i
  case jpr a => exact Agrees.bind (toLasmSigned_agrees a) fun _ => Agrees.rfl'
  case div a b c => cases c <;> exact Agrees.rfl'
  case mod a b c => cases c <;> exact Agrees.rfl'
  case xor a b => cases b <;> exact Agrees.rfl'
  case «if» a => cases a <;> exact Agrees.rfl'
  case ifN a => cases a <;> exact Agrees.rfl'
  all_goals exact Agrees.rfl'

theorem word_toLasm_agrees (w : ProgramWord) : Agrees (w.toLasm .debug) (w.toLasm .release) := by
  cases w with
  | instr i => exact instr_toLasm_agrees i
  | raw w => exact Agrees.rfl'

theorem mapM_agrees {f g : α → Option β} (h : ∀ a, Agrees (f a) (g a)) (l : List α) :
    Agrees (l.mapM f) (l.mapM g) := by
  induction l with
  | nil => exact Agrees.rfl'
  | cons a l ih =>
    rw [List.mapM_cons, List.mapM_cons]
    exact Agrees.bind (h a) fun _ => Agrees.bind ih fun _ => Agrees.rfl'

theorem annotatedFrom_agrees (c : BitVec 32) (p : Program) :
    Agrees (annotatedFrom .debug c p) (annotatedFrom .release c p) := by
  induction p generalizing c with
  | nil => exact Agrees.rfl'
  | cons w ws ih =>
    unfold annotatedFrom
    refine Agrees.bind (word_toLasm_agrees w) fun t => ?_
    intro x hx
    dsimp only at *
    split at hx
    · cases hx
    · rw [if_neg (fun hc => by cases hc.1)]
      exact Agrees.bind Agrees.rfl' (fun n => Agrees.bind (ih n) fun _ => Agrees.rfl') x hx

theorem program_toLasm_agrees (p : Program) (annotate : Bool) :
    Agrees (p.toLasm .debug annotate) (p.toLasm .release annotate) := by
  unfold Program.toLasm
  dsimp only
  split
  · exact Agrees.bind (annotatedFrom_agrees 0 p) fun _ => Agrees.rfl'
  · exact Agrees.bind (mapM_agrees word_toLasm_agrees p) fun _ => Agrees.rfl'

theorem disassemble_agrees (code : List U8) (annotate : Bool) :
    Agrees (disassemble .debug code annotate) (disassemble .release code annotate) := by
  unfold disassemble
  split
  · exact Agrees.rfl'
  · exact Agrees.bind (program_toLasm_agrees _ _) fun _ => Agrees.rfl'

theorem signedHex_agrees (w : Nat) {k : Nat} (n : BitVec k) : Agrees (signedHex .debug w n) (signedHex .release w n) := by
  intro x hx
  unfold signedHex at *
  split <;> simp_all

theorem debugText_agrees (i : DebugInfo) : Agrees (i.text .debug) (i.text .release) := by
  cases i
  case signedByteHex n => exact signedHex_agrees _ _
  case signedHalfWordHex n => exact signedHex_agrees _ _
  case signedWordHex n => exact signedHex_agrees _ _
  case utf8Char c => cases c <;> exact Agrees.rfl'
  all_goals exact Agrees.rfl'

theorem debugOutput_agrees (is : List DebugInfo) : Agrees (debugOutput .debug is) (debugOutput .release is) := by
  induction is with
  | nil => exact Agrees.rfl'
  | cons i is ih =>
    exact Agrees.bind (Agrees.bind (debugText_agrees i) fun _ => Agrees.rfl') fun _ =>
      Agrees.bind ih fun _ => Agrees.rfl'

end Lrvm
