import Verif.Store.File
/-!
C149: pnet_remove_data_files removes all data the stack has saved.
-/
set_option linter.unusedVariables false
namespace Verif.Store

/-- Bytes of a file name. -/
def fileName (s : String) : List Byte := s.toList.map fun c => BitVec.ofNat 8 c.toNat

/-- File names (src/common/pf_file.h:28-34, src/common/pf_snmp.h:113-115). -/
def nameIp := fileName "pnet_data_ip.bin"
def nameIm := fileName "pnet_data_im.bin"
def nameDiag := fileName "pnet_data_diagnostics.bin"
def nameContact := fileName "pnet_data_syscontact.bin"
def nameSysName := fileName "pnet_data_sysname.bin"
def nameLocation := fileName "pnet_data_syslocation.bin"

/-- pf_pdport_get_filename (src/device/pf_pdport.c:41-62): `none` for the assertion. -/
def portFile : Nat → Option (List Byte)
  | 1 => some (fileName "pnet_data_pdport_1.bin")
  | 2 => some (fileName "pnet_data_pdport_2.bin")
  | 3 => some (fileName "pnet_data_pdport_3.bin")
  | 4 => some (fileName "pnet_data_pdport_4.bin")
  | _ => none

/-- pf_snmp_remove_data_files (src/common/pf_snmp.c:302-307) -/
def snmpRemove (max : Nat) (fs : Fs) (dir : List Byte) : Fs :=
  clear max (clear max (clear max fs dir nameContact) dir nameSysName) dir nameLocation

/-- pf_pdport_remove_data_files (src/device/pf_pdport.c:404-413): the loop over the ports `ks`. -/
def portsRemove (max : Nat) (dir : List Byte) : List Nat → Fs → Option Fs
  | [], fs => some fs
  | k :: ks, fs =>
    match portFile k with
    | none => none
    | some n => portsRemove max dir ks (clear max fs dir n)

/-- pf_cmina_remove_all_data_files (src/device/pf_cmina.c:1283-1294), called by pnet_remove_data_files (src/device/pnet_api.c:532-541). `snmp` is
PNET_OPTION_SNMP, `maxPorts` is PNET_MAX_PHYSICAL_PORTS. -/
def removeAll (max : Nat) (snmp : Bool) (maxPorts : Nat) (fs : Fs) (dir : List Byte) : Option Fs :=
  let fs := clear max fs dir nameIm
  let fs := clear max fs dir nameIp
  let fs := clear max fs dir nameDiag
  let fs := if snmp then snmpRemove max fs dir else fs
  portsRemove max dir (List.range' 1 maxPorts) fs

/-! ## Specification -/

/-- Names of the files in which the stack keeps data. -/
def dataFiles (snmp : Bool) (ports : Nat) : List (List Byte) :=
  ["pnet_data_im.bin", "pnet_data_ip.bin", "pnet_data_diagnostics.bin"].map fileName ++
  (if snmp then ["pnet_data_syscontact.bin", "pnet_data_sysname.bin", "pnet_data_syslocation.bin"].map fileName
   else []) ++
  (["pnet_data_pdport_1.bin", "pnet_data_pdport_2.bin", "pnet_data_pdport_3.bin",
    "pnet_data_pdport_4.bin"].map fileName).take ports

/-! ## Proof -/

theorem clear_spec (max : Nat) (fs : Fs) (dir n : List Byte) (q : Path) :
    clear max fs dir n q = if join max dir n = some q then none else fs q := by
  unfold clear
  cases h : join max dir n with
  | none => simp
  | some p => simp [pnalClear, eq_comm]

theorem clears_spec (max : Nat) (dir : List Byte) (ns : List (List Byte)) (fs : Fs) (q : Path) :
    (ns.foldl (fun fs n => clear max fs dir n) fs) q = none ∨
      (∀ n ∈ ns, join max dir n ≠ some q) ∧ (ns.foldl (fun fs n => clear max fs dir n) fs) q = fs q := by
  induction ns generalizing fs with
  | nil => exact Or.inr ⟨by simp, rfl⟩
  | cons n ns ih =>
    rw [List.foldl_cons]
    rcases ih (clear max fs dir n) with h | ⟨h1, h2⟩
    · exact Or.inl h
    · rw [h2, clear_spec]
      by_cases hj : join max dir n = some q
      · rw [if_pos hj]; exact Or.inl rfl
      · rw [if_neg hj]
        refine Or.inr ⟨fun m hm => ?_, rfl⟩
        rcases List.mem_cons.1 hm with rfl | hm
        · exact hj
        · exact h1 m hm

theorem clears_other (max : Nat) (dir : List Byte) (ns : List (List Byte)) (fs : Fs) (q : Path)
    (h : ∀ n ∈ ns, join max dir n ≠ some q) : (ns.foldl (fun fs n => clear max fs dir n) fs) q = fs q := by
  induction ns generalizing fs with
  | nil => rfl
  | cons n ns ih =>
    rw [List.foldl_cons, ih _ fun m hm => h m (List.mem_cons_of_mem _ hm), clear_spec,
      if_neg (h n List.mem_cons_self)]

theorem portsRemove_eq (max : Nat) (dir : List Byte) (names : List (List Byte)) :
    ∀ (ks : List Nat) (fs : Fs), ks.map portFile = names.map some →
      portsRemove max dir ks fs = some (names.foldl (fun fs n => clear max fs dir n) fs) := by
  induction names with
  | nil => intro ks fs h; cases ks <;> simp_all [portsRemove]
  | cons n names ih =>
    intro ks fs h
    cases ks with
    | nil => simp at h
    | cons k ks =>
      simp only [List.map_cons, List.cons.injEq] at h
      simp only [portsRemove, h.1, List.foldl_cons]
      exact ih ks _ h.2

theorem removeAll_eq (max : Nat) (snmp : Bool) (ports : Nat) (fs : Fs) (dir : List Byte) (hp : ports ≤ 4) :
    ∃ names : List (List Byte), (∀ n, n ∈ names ↔ n ∈ dataFiles snmp ports) ∧
      removeAll max snmp ports fs dir = some (names.foldl (fun fs n => clear max fs dir n) fs) := by
  have hports : (List.range' 1 ports).map portFile =
      ((["pnet_data_pdport_1.bin", "pnet_data_pdport_2.bin", "pnet_data_pdport_3.bin",
        "pnet_data_pdport_4.bin"].map fileName).take ports).map some := by
    match ports, hp with
    | 0, _ => rfl
    | 1, _ => rfl
    | 2, _ => rfl
    | 3, _ => rfl
    | 4, _ => rfl
  refine ⟨[nameIm, nameIp, nameDiag] ++ (if snmp then [nameContact, nameSysName, nameLocation] else []) ++
    ((["pnet_data_pdport_1.bin", "pnet_data_pdport_2.bin", "pnet_data_pdport_3.bin",
        "pnet_data_pdport_4.bin"].map fileName).take ports), ?_, ?_⟩
  · intro n
    unfold dataFiles
    cases snmp <;> exact Iff.rfl
  · unfold removeAll
    dsimp only
    rw [portsRemove_eq max dir _ _ _ hports]
    cases snmp <;> simp [snmpRemove]

/-- **C149** With at most four ports, whatever was saved before, no data file is left: each of them is
missing, so loading it fails and the configured values are used. All other files are unchanged. Missing: more ports (`C149_more_ports`). -/
theorem C149_removed_partial (max : Nat) (snmp : Bool) (ports : Nat) (fs : Fs) (dir : List Byte) (hp : ports ≤ 4) :
    ∃ fs', removeAll max snmp ports fs dir = some fs' ∧
      (∀ n ∈ dataFiles snmp ports, ∀ p, join max dir n = some p → fs' p = none) ∧
      (∀ n ∈ dataFiles snmp ports, ∀ size, load max fs' dir n size = none) ∧
      (∀ p, (∀ n ∈ dataFiles snmp ports, join max dir n ≠ some p) → fs' p = fs p) := by
  obtain ⟨names, hn, he⟩ := removeAll_eq max snmp ports fs dir hp
  have hgone : ∀ n ∈ dataFiles snmp ports, ∀ p, join max dir n = some p →
      (names.foldl (fun fs n => clear max fs dir n) fs) p = none := by
    intro n hm p hj
    rcases clears_spec max dir names fs p with h | ⟨h, -⟩
    · exact h
    · exact absurd hj (h n ((hn n).2 hm))
  refine ⟨_, he, hgone, fun n hm size => ?_, fun p h => clears_other max dir names fs p fun n hm => h n ((hn n).1 hm)⟩
  cases hl : load max (names.foldl (fun fs n => clear max fs dir n) fs) dir n size with
  | none => rfl
  | some obj =>
    obtain ⟨p, d, h1, h2, -⟩ := (C42_load_iff _ _ _ _ _ _).1 hl
    rw [hgone n hm p h1] at h2; cases h2

theorem portsRemove_none (max : Nat) (dir : List Byte) : ∀ (ks : List Nat) (fs : Fs),
    (∃ k ∈ ks, portFile k = none) → portsRemove max dir ks fs = none
  | [], _, h => by simp at h
  | k :: ks, fs, h => by
    rw [portsRemove]
    cases hk : portFile k with
    | none => rfl
    | some n =>
      obtain ⟨j, hj, hn⟩ := h
      rcases List.mem_cons.1 hj with rfl | hj
      · rw [hk] at hn; cases hn
      · exact portsRemove_none max dir ks _ ⟨j, hj, hn⟩

/-- The bound is needed: a stack built for more than four ports stops at an assertion. -/
theorem C149_more_ports (max : Nat) (snmp : Bool) (ports : Nat) (fs : Fs) (dir : List Byte) (hp : 4 < ports) :
    removeAll max snmp ports fs dir = none := by
  unfold removeAll
  exact portsRemove_none max dir _ _ ⟨5, by rw [List.mem_range'_1]; omega, rfl⟩

/-- Saved I&M data is loaded before, and not after; another file stays. -/
theorem C149_example :
    let dir : List Byte := [47, 100]
    let fs0 : Fs := fun p => if p = [47, 100, 47, 97] then some [1, 2, 3] else none
    let fs := (save 100 fs0 dir nameIm [1, 2] .ok).1
    load 100 fs dir nameIm 2 = some [1, 2] ∧
    ∃ fs', removeAll 100 true 4 fs dir = some fs' ∧ load 100 fs' dir nameIm 2 = none ∧
      fs' [47, 100, 47, 97] = some [1, 2, 3] := by
  refine ⟨by decide +kernel, ?_⟩
  obtain ⟨fs', h1, -, h3, h4⟩ := C149_removed_partial 100 true 4
    (save 100 (fun p => if p = [47, 100, 47, 97] then some [1, 2, 3] else none) [47, 100] nameIm [1, 2] .ok).1 [47, 100] (by decide)
  refine ⟨fs', h1, h3 _ (by decide +kernel) 2, ?_⟩
  rw [h4 _ (by decide +kernel)]
  decide +kernel

end Verif.Store
