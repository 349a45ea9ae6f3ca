import Verif.Lemmas.Monad

/-!
# CPU memory accesses as functions of the registers, the mappings and the components

`accRead`/`accWrite` restate `cpuRead`/`cpuWrite`/`cpuExec` without the machine state around them.
-/

namespace Lrvm

variable {D : Type} [Bus D]

/-- Outcome of a memory access. -/
inductive Acc (D : Type) (α : Type)
  | done (a : α) (devs : List D)
  | fault (code : U8) (data : U16) (devs : List D)
  | panic

/-- An access's outcome as an outcome of a CPU action. -/
def Acc.toOut (s : Machine D) : Acc D α → Out (Machine D) α
  | .done a devs => .ok a { s with devs := devs }
  | .fault c d devs => .ex ({ s with devs := devs }.exception c d)
  | .panic => .panic

/-- `memRead` on the mappings and components. -/
def devRead (pf : Profile) (maps : List Mapping) (devs : List D) (addr : Word) (ex : U16) :
    Res (Word × U16 × List D) := do
  assert (addr % 4 == 0)
  match ← findMapping pf maps addr with
  | some m => do
    let off ← pf.sub addr m.addr
    match ← bridgeRead devs m.auxId off ex with
    | none => panicked
    | some r => some r
  | none => some (0, ex, devs)

/-- `memWrite` on the mappings and components. -/
def devWrite (pf : Profile) (maps : List Mapping) (devs : List D) (addr word : Word) (ex : U16) :
    Res (U16 × List D) := do
  assert (addr % 4 == 0)
  match ← findMapping pf maps addr with
  | some m => do
    let off ← pf.sub addr m.addr
    match ← bridgeWrite devs m.auxId off word ex with
    | none => panicked
    | some r => some r
  | none => some (ex, devs)

theorem memRead_eq (pf : Profile) (s : Machine D) (addr : Word) (ex : U16) :
    memRead pf s addr ex =
      (devRead pf s.mappings s.devs addr ex).map fun p => (p.1, p.2.1, { s with devs := p.2.2 }) := by
  unfold memRead devRead
  cases assert (addr % 4 == 0) with
  | none => rfl
  | some u =>
    cases findMapping pf s.mappings addr with
    | none => rfl
    | some o =>
      cases o with
      | none => rfl
      | some m =>
        simp only [Option.bind_eq_bind, Option.bind_some]
        cases pf.sub addr m.addr with
        | none => rfl
        | some off =>
          simp only [Option.bind_some]
          cases bridgeRead s.devs m.auxId off ex with
          | none => rfl
          | some r => cases r <;> rfl

theorem memWrite_eq (pf : Profile) (s : Machine D) (addr word : Word) (ex : U16) :
    memWrite pf s addr word ex =
      (devWrite pf s.mappings s.devs addr word ex).map fun p => (p.1, { s with devs := p.2 }) := by
  unfold memWrite devWrite
  cases assert (addr % 4 == 0) with
  | none => rfl
  | some u =>
    cases findMapping pf s.mappings addr with
    | none => rfl
    | some o =>
      cases o with
      | none => rfl
      | some m =>
        simp only [Option.bind_eq_bind, Option.bind_some]
        cases pf.sub addr m.addr with
        | none => rfl
        | some off =>
          simp only [Option.bind_some]
          cases bridgeWrite s.devs m.auxId off word ex with
          | none => rfl
          | some r => cases r <;> rfl

theorem permBit_ne (e : Word) (k : Nat) (hk : 24 ≤ k) : e &&& (1#32 <<< k) ≠ 1 := by
  intro h
  have := congrArg (fun x => x.getLsbD 0) h
  simp at this
  omega

/-- The address of the first table entry read by the MMU. -/
def entryAddr (pf : Profile) (pda v : Word) : Res Word := do
  let t ← pf.mul (v &&& 0x3FF#32) 4
  pf.add pda t

/-- Is the pass-through path taken for this entry (the tested bit is 0)? -/
def passBit (smt : Word) (entry : Word) : Bool :=
  entry &&& (1#32 <<< (if smt ≠ 0 then 31 else 30)) == 0

/-- `translate` on the registers, mappings and components. -/
def transl (pf : Profile) (r : Regs) (maps : List Mapping) (devs : List D) (v : Word) :
    Res (Except (Option U16) Word × List D) :=
  if r.mtt = 0 then some (.ok v, devs)
  else do
    let a ← entryAddr pf r.pda v
    let (e, ex, devs') ← devRead pf maps devs a 0
    if ex ≠ 0 then some (.error (some ex), devs')
    else if passBit r.smt e then some (.ok v, devs')
    else some (.error none, devs')

/-- The permission test of the source compares a single high bit with `1`: it never succeeds, so an
entry is either passed through or refused. -/
theorem decodeEntryWord_eq (regs : Regs) (e : Word) (a : MemAction) :
    decodeEntryWord regs e a = if passBit regs.smt e then .passThrough else .permissionNotSet := by
  unfold passBit
  by_cases h1 : e &&& (1#32 <<< (if regs.smt ≠ 0 then 31 else 30)) = 0
  · have h2 : (e &&& (1#32 <<< (if regs.smt ≠ 0 then 31 else 30)) == 0) = true := by simpa using h1
    rw [h2, if_pos rfl]
    simp only [decodeEntryWord]
    rw [if_pos h1]
  · have h2 : (e &&& (1#32 <<< (if regs.smt ≠ 0 then 31 else 30)) == 0) = false := by simpa using h1
    rw [h2]
    simp only [decodeEntryWord]
    rw [if_neg h1]
    cases a <;> (
      rw [if_neg (permBit_ne _ _ (by omega))]
      rfl)

theorem translate_eq (pf : Profile) (s : Machine D) (v : Word) (act : MemAction) :
    translate pf s v act =
      (transl pf s.regs s.mappings s.devs v).map fun p => (p.1, { s with devs := p.2 }) := by
  unfold translate transl entryAddr
  by_cases hm : s.regs.mtt = 0
  · rw [if_pos hm, if_pos hm]; rfl
  · rw [if_neg hm, if_neg hm]
    dsimp only
    cases pf.mul (v &&& 0x3FF#32) 4 with
    | none => rfl
    | some t =>
    simp only [Option.bind_eq_bind, Option.bind_some]
    cases pf.add s.regs.pda t with
    | none => rfl
    | some a =>
    simp only [Option.bind_some, decodeEntry, memRead_eq, Option.bind_eq_bind]
    cases devRead pf s.mappings s.devs a 0 with
    | none => rfl
    | some p =>
      obtain ⟨e, ex, devs'⟩ := p
      simp only [Option.map_some, Option.bind_some]
      by_cases hex : ex ≠ 0
      · simp only [if_pos hex]; rfl
      · simp only [if_neg hex, decodeEntryWord_eq]
        cases passBit s.regs.smt e <;> rfl

/-- `memDo` on the registers, mappings and components. -/
def accDo (pf : Profile) (r : Regs) (maps : List Mapping) (devs : List D) (v : Word)
    (handler : List D → Word → Res (α × U16 × List D)) : Acc D α :=
  if v % 4 ≠ 0 then .fault 0x05 ((v % 4).setWidth 16) devs
  else match transl pf r maps devs v with
    | none => .panic
    | some (.ok p, devs1) =>
      match handler devs1 p with
      | none => .panic
      | some (a, ex, devs2) => if ex ≠ 0 then .fault 0xA0 ex devs2 else .done a devs2
    | some (.error none, devs1) => .fault 0x06 (v.setWidth 16) devs1
    | some (.error (some ex), devs1) => .fault 0xA0 ex devs1

theorem memDo_eq (pf : Profile) (act : MemAction) (v : Word) (s : Machine D)
    (handler : Machine D → Word → U16 → Res (α × U16 × Machine D))
    (h' : List D → Word → Res (α × U16 × List D))
    (hh : ∀ devs p, handler { s with devs := devs } p 0 =
      (h' devs p).map fun q => (q.1, q.2.1, { s with devs := q.2.2 })) :
    memDo pf act v handler s = (accDo pf s.regs s.mappings s.devs v h').toOut s := by
  unfold memDo accDo ensureAligned
  by_cases ha : v % 4 ≠ 0
  · rw [if_pos ha, if_pos ha]; rfl
  · rw [if_neg ha, if_neg ha]
    refine (M.bind_ok (a := v) (s' := s) rfl).trans ?_
    rw [translate_eq]
    cases transl pf s.regs s.mappings s.devs v with
    | none => rfl
    | some p =>
      obtain ⟨r, devs1⟩ := p
      cases r with
      | error o => cases o <;> rfl
      | ok p =>
        simp only [Option.map_some]
        rw [hh]
        cases h' devs1 p with
        | none => rfl
        | some q =>
          obtain ⟨a, ex, devs2⟩ := q
          simp only [Option.map_some]
          by_cases hex : ex ≠ 0
          · rw [if_pos hex, if_pos hex]; rfl
          · rw [if_neg hex, if_neg hex]; rfl

/-- `cpuRead` and `cpuExec` on the registers, mappings and components. -/
def accRead (pf : Profile) (r : Regs) (maps : List Mapping) (devs : List D) (v : Word) : Acc D Word :=
  accDo pf r maps devs v fun devs p => devRead pf maps devs p 0

/-- `cpuWrite` on the registers, mappings and components. -/
def accWrite (pf : Profile) (r : Regs) (maps : List Mapping) (devs : List D) (v w : Word) :
    Acc D Unit :=
  accDo pf r maps devs v fun devs p => (devWrite pf maps devs p w 0).map fun q => ((), q.1, q.2)

theorem cpuRead_eq (pf : Profile) (v : Word) (s : Machine D) :
    cpuRead pf v s = (accRead pf s.regs s.mappings s.devs v).toOut s :=
  memDo_eq pf .read v s _ _ fun _ _ => memRead_eq ..

theorem cpuExec_eq (pf : Profile) (v : Word) (s : Machine D) :
    cpuExec pf v s = (accRead pf s.regs s.mappings s.devs v).toOut s :=
  memDo_eq pf .exec v s _ _ fun _ _ => memRead_eq ..

theorem cpuWrite_eq (pf : Profile) (v w : Word) (s : Machine D) :
    cpuWrite pf v w s = (accWrite pf s.regs s.mappings s.devs v w).toOut s :=
  memDo_eq pf .write v s _ _ fun devs p => by
    rw [memWrite_eq]
    cases devWrite pf s.mappings devs p w 0 <;> rfl

/-- Accesses depend on the registers through `mtt`, `pda` and `smt` only. -/
theorem transl_congr {pf : Profile} {r r' : Regs} {maps : List Mapping} {devs : List D} {v : Word}
    (h1 : r.mtt = r'.mtt) (h2 : r.pda = r'.pda) (h3 : r.smt = r'.smt) :
    transl pf r maps devs v = transl pf r' maps devs v := by
  unfold transl; rw [h1, h2, h3]

theorem accRead_congr {pf : Profile} {r r' : Regs} {maps : List Mapping} {devs : List D} {v : Word}
    (h1 : r.mtt = r'.mtt) (h2 : r.pda = r'.pda) (h3 : r.smt = r'.smt) :
    accRead pf r maps devs v = accRead pf r' maps devs v := by
  unfold accRead accDo; rw [transl_congr h1 h2 h3]

theorem accWrite_congr {pf : Profile} {r r' : Regs} {maps : List Mapping} {devs : List D} {v w : Word}
    (h1 : r.mtt = r'.mtt) (h2 : r.pda = r'.pda) (h3 : r.smt = r'.smt) :
    accWrite pf r maps devs v w = accWrite pf r' maps devs v w := by
  unfold accWrite accDo; rw [transl_congr h1 h2 h3]

end Lrvm
