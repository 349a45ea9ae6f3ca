import Verif.Lemmas.Devices

/-!
# Component invariants relative to any list of sizes

The same induction as in `Verif.Lemmas.Devices`, for a list of remembered sizes that need not be the board's own.
-/

namespace Lrvm

open Spec

variable {D : Type} [Bus D] {pf : Profile}

theorem memRead_invAt {P : Nat → D → Prop} {cache : List AuxCache} {s s' : Machine D} (hi : DevInv P cache)
    (hp : Placed cache s.mappings) {a w : Word} {ex ex' : U16} (hd : AllDev P s.devs)
    (h : memRead pf s a ex = some (w, ex', s')) : AllDev P s'.devs := by
  rw [memRead_eq, Option.map_eq_some_iff] at h
  obtain ⟨⟨x, y, z⟩, hdr, h⟩ := h
  injection h with h1 h; injection h with h2 h; rw [← h]; exact devRead_inv hi hp hd hdr

theorem memWrite_invAt {P : Nat → D → Prop} {cache : List AuxCache} {s s' : Machine D} (hi : DevInv P cache)
    (hp : Placed cache s.mappings) {a w : Word} {ex ex' : U16} (hd : AllDev P s.devs)
    (h : memWrite pf s a w ex = some (ex', s')) : AllDev P s'.devs := by
  rw [memWrite_eq, Option.map_eq_some_iff] at h
  obtain ⟨⟨x, z⟩, hdr, h⟩ := h
  injection h with h1 h; rw [← h]; exact devWrite_inv hi hp hd hdr

theorem Eff.devInvAt {P : Nat → D → Prop} {cache : List AuxCache} {f : Fields} {t u : Machine D} (h : Eff pf f t u)
    (hi : DevInv P cache) (hp : Placed cache t.mappings) (hd : AllDev P t.devs) :
    u.mappings = t.mappings ∧ AllDev P u.devs := by
  cases h with
  | regWrite hd' hu h17 h1A h1B hw => exact ⟨rfl, hd⟩
  | flags r c o h => exact ⟨rfl, hd⟩
  | jump v h => exact ⟨rfl, hd⟩
  | lsm v h hs => exact ⟨rfl, hd⟩
  | skip h => exact ⟨rfl, hd⟩
  | itr d h => exact ⟨rfl, hd⟩
  | avr w h => exact ⟨rfl, hd⟩
  | sp v h =>
    obtain ⟨h1, _, h3⟩ := Machine.setSp_frame t v
    rw [h1, h3]; exact ⟨rfl, hd⟩
  | busRead h hr => exact ⟨by rw [memRead_frame hr], memRead_invAt hi hp hd hr⟩
  | busWrite h hr => exact ⟨by rw [memWrite_frame hr], memWrite_invAt hi hp hd hr⟩
  | devReset h hr => exact ⟨rfl, bridgeReset_inv hi hd hr⟩
  | halt h => exact ⟨rfl, hd⟩
  | cpuReset h => exact ⟨rfl, hd⟩

theorem Effs.devInvAt {P : Nat → D → Prop} {cache : List AuxCache} {f : Fields} {t u : Machine D}
    (h : Effs pf f t u) (hi : DevInv P cache) (hp : Placed cache t.mappings) (hd : AllDev P t.devs) :
    AllDev P u.devs := by
  refine (h.inv (P := fun v => v.mappings = t.mappings ∧ AllDev P v.devs) ⟨rfl, hd⟩ ?_).2
  rintro v v' ⟨h2, h3⟩ he
  obtain ⟨e2, e3⟩ := he.devInvAt hi (by rw [h2]; exact hp) h3
  exact ⟨e2.trans h2, e3⟩

theorem next_devInvAt {P : Nat → D → Prop} {cache : List AuxCache} {s s' : Machine D} (hi : DevInv P cache)
    (hp : Placed cache s.mappings) (hd : AllDev P s.devs) (h : next pf s = some s') : AllDev P s'.devs := by
  by_cases hh : s.halted = true
  · unfold next at h; rw [if_pos hh] at h; injection h with h; rw [← h]; exact hd
  · rcases next_inv h (by simpa using hh) with ⟨devs, c, d, _, ha, _, rfl⟩ | ⟨w, devs, hf, _, hr⟩
    · exact (accRead_inv hi hp hd).2 _ _ ha
    · have hd1 : AllDev P devs := (accRead_inv hi hp hd).1 _ (fetches_iff.mp hf).2
      rcases hr with ⟨t, c, d, _, he, _, rfl⟩ | ⟨t, _, he, rfl⟩
      · exact he.devInvAt (t := atExec s devs) hi hp hd1
      · have := he.devInvAt (t := atExec s devs) hi hp hd1
        split <;> exact this

/-- A host call keeps every mapping there was. -/
theorem contigLoop_grows {s s' : Machine D} {acc acc' : ContigAcc} {ids : List Nat}
    (h : contigLoop pf acc s ids = some (acc', s')) : ∀ m ∈ s.mappings, m ∈ s'.mappings := by
  induction ids generalizing acc s with
  | nil => simp only [contigLoop, Option.some.injEq, Prod.mk.injEq] at h; rw [← h.2]; exact fun m hm => hm
  | cons i is ih =>
    simp only [contigLoop, Option.bind_eq_bind, Option.bind_eq_some_iff] at h
    obtain ⟨⟨a1, s1⟩, hst, h⟩ := h
    simp only [contigStep, Option.bind_eq_bind, Option.bind_eq_some_iff] at hst
    obtain ⟨⟨r2, s2⟩, hm2, a2, _, hst⟩ := hst
    split at hst
    · cases hst
    · injection hst with hst; injection hst with _ hst; subst hst
      intro m hm
      refine ih h m ?_
      rcases internalMap_inv hm2 with ⟨_, rfl⟩ | ⟨_, _, _, _, rfl⟩
      · exact hm
      · exact List.mem_append_left _ hm

theorem hostStep_grows {s s' : Machine D} {op : HostOp} (h : hostStep pf s op = some s') :
    ∀ m ∈ s.mappings, m ∈ s'.mappings := by
  cases op with
  | map a i =>
    simp only [hostStep, Option.map_eq_some_iff] at h
    obtain ⟨⟨r, v⟩, hm, rfl⟩ := h
    rcases internalMap_inv hm with ⟨_, rfl⟩ | ⟨_, _, _, _, rfl⟩
    · exact fun m hm => hm
    · exact fun m hm => List.mem_append_left _ hm
  | mapAbs a e i =>
    simp only [hostStep, Option.map_eq_some_iff] at h
    obtain ⟨⟨r, v⟩, hm, rfl⟩ := h
    rcases internalMap_inv hm with ⟨_, rfl⟩ | ⟨_, _, _, _, rfl⟩
    · exact fun m hm => hm
    · exact fun m hm => List.mem_append_left _ hm
  | mapContiguous a is =>
    simp only [hostStep, Option.map_eq_some_iff, mapContiguous, Option.bind_eq_bind, Option.bind_eq_some_iff] at h
    obtain ⟨⟨r, v⟩, ⟨⟨a1, s1⟩, hl, hm⟩, rfl⟩ := h
    injection hm with hm; injection hm with _ hm; subst hm
    exact contigLoop_grows hl
  | next => rw [hostStep_mappings h (by simp) (by simp) (by simp)]; exact fun m hm => hm
  | cpuReset => rw [hostStep_mappings h (by simp) (by simp) (by simp)]; exact fun m hm => hm
  | reset => rw [hostStep_mappings h (by simp) (by simp) (by simp)]; exact fun m hm => hm
  | memRead a ex => rw [hostStep_mappings h (by simp) (by simp) (by simp)]; exact fun m hm => hm
  | memWrite a w ex => rw [hostStep_mappings h (by simp) (by simp) (by simp)]; exact fun m hm => hm
  | setRegs f => rw [hostStep_mappings h (by simp) (by simp) (by simp)]; exact fun m hm => hm

theorem hostRun_grows {s s' : Machine D} {ops : List HostOp} (h : hostRun pf ops s = some s') :
    ∀ m ∈ s.mappings, m ∈ s'.mappings := by
  induction ops generalizing s with
  | nil => injection h with h; rw [← h]; exact fun m hm => hm
  | cons op ops ih =>
    simp only [hostRun, Option.bind_eq_bind, Option.bind_eq_some_iff] at h
    obtain ⟨t, ht, h⟩ := h
    exact fun m hm => ih h m (hostStep_grows ht m hm)

theorem hostStep_devInvAt {P : Nat → D → Prop} {cache : List AuxCache} {s s' : Machine D} {op : HostOp}
    (hi : DevInv P cache) (hp : Placed cache s.mappings) (hd : AllDev P s.devs)
    (h : hostStep pf s op = some s') : AllDev P s'.devs := by
  cases op with
  | next => exact next_devInvAt hi hp hd h
  | cpuReset => injection h with h; rw [← h]; exact hd
  | reset =>
    simp only [hostStep, boardReset, Option.bind_eq_bind, Option.bind_eq_some_iff] at h
    obtain ⟨devs, hr, h⟩ := h
    injection h with h; rw [← h]
    have key : ∀ (P : Nat → D → Prop), (∀ {id d d'}, P id d → Bus.reset d = some d' → P id d') →
        ∀ (l l' : List D), AllDev P l → resetAll l = some l' → AllDev P l' := by
      intro P hP l
      induction l generalizing P with
      | nil => intro l' hl hr; injection hr with hr; rw [← hr]; exact hl
      | cons d ds ih =>
        intro l' hl hr
        simp only [resetAll, Option.bind_eq_bind, Option.bind_eq_some_iff] at hr
        obtain ⟨d', h1, ds', h2, h3⟩ := hr
        injection h3 with h3; subst h3
        have := ih (fun i => P (i + 1)) (fun {id d d'} => hP) ds' (fun i e he => hl (i + 1) e (by simpa using he)) h2
        intro i e he
        cases i with
        | zero => simp at he; subst he; exact hP (hl 0 d (by simp)) h1
        | succ i => simp at he; exact this i e he
    exact key P hi.reset _ _ hd hr
  | map a i =>
    simp only [hostStep, Option.map_eq_some_iff] at h
    obtain ⟨⟨r, v⟩, hm, rfl⟩ := h
    rw [show v.devs = s.devs by rw [internalMap_frame hm]]; exact hd
  | mapAbs a e i =>
    simp only [hostStep, Option.map_eq_some_iff] at h
    obtain ⟨⟨r, v⟩, hm, rfl⟩ := h
    rw [show v.devs = s.devs by rw [internalMap_frame hm]]; exact hd
  | mapContiguous a is =>
    simp only [hostStep, Option.map_eq_some_iff] at h
    obtain ⟨⟨r, v⟩, hm, rfl⟩ := h
    rw [show v.devs = s.devs by rw [mapContiguous_frame hm]]; exact hd
  | memRead a ex =>
    simp only [hostStep, Option.map_eq_some_iff] at h
    obtain ⟨⟨w, e, t⟩, hm, rfl⟩ := h
    exact memRead_invAt hi hp hd hm
  | memWrite a w ex =>
    simp only [hostStep, Option.map_eq_some_iff] at h
    obtain ⟨⟨e, t⟩, hm, rfl⟩ := h
    exact memWrite_invAt hi hp hd hm
  | setRegs f => injection h with h; rw [← h]; exact hd

/-- The board's own bookkeeping along a history. -/
theorem hostRun_placed {s s' : Machine D} {ops : List HostOp} (hp : Placed s.memCache s.mappings)
    (h : hostRun pf ops s = some s') : s'.memCache = s.memCache ∧ Placed s.memCache s'.mappings := by
  have := hostRun_devInv (P := fun _ _ => True) ⟨by intros; trivial, by intros; trivial, by intros; trivial⟩ hp
    (fun _ _ _ => trivial) h
  exact ⟨this.1, this.2.1⟩

end Lrvm
