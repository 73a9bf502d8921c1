import Verif.Batch.Props
import Verif.Router.Lemmas2
set_option linter.unusedSimpArgs false
set_option linter.unusedVariables false
/-
What holds of the staging directories, of the credentials in them, and of the users jobs run as (C120, C121, C124).
-/
namespace Verif.Batch
open Verif.Backends (pathJoin Attempt)

/-! ### C120: staging directories -/

/-- A name of one part, as the names of clusters are (db_base.py `uuid4().hex`). -/
def Part (n : Str) : Prop := n ≠ [] ∧ '/' ∉ n

/-- A path lies within a directory. -/
def Within (d p : Str) : Prop := ∃ r, p = d ++ '/' :: r

/-- The last part of a path. -/
def lastPart (p : Str) : Str := (p.reverse.takeWhile (· ≠ '/')).reverse

theorem pathJoin_part (d n : Str) (h : Part n) :
    pathJoin d n = n ∧ d = [] ∨ ∃ e, pathJoin d n = e ++ '/' :: n ∧ (d = e ++ ['/'] ∨ d = e) := by
  unfold pathJoin
  have h1 : n.head? ≠ some '/' := by
    cases n with
    | nil => simp
    | cons c n =>
      intro e
      cases e
      exact h.2 (by simp)
  rw [if_neg h1]
  by_cases h2 : d = [] ∨ d.getLast? = some '/'
  · rw [if_pos h2]
    rcases h2 with rfl | h2
    · exact Or.inl ⟨rfl, rfl⟩
    · right
      rcases List.eq_nil_or_concat d with rfl | ⟨e, x, rfl⟩
      · cases h2
      · rw [List.concat_eq_append, List.getLast?_append] at h2
        have hx : x = '/' := by simpa using h2
        subst hx
        exact ⟨e, by simp, Or.inl (by simp)⟩
  · rw [if_neg h2]
    exact Or.inr ⟨d, rfl, Or.inr rfl⟩

theorem lastPart_join (d n : Str) (h : Part n) : lastPart (pathJoin d n) = n := by
  have hr : ∀ c ∈ n.reverse, decide (c ≠ '/') = true := by
    intro c hc
    have : c ≠ '/' := fun e => h.2 (by rw [← e]; exact List.mem_reverse.mp hc)
    simp [this]
  rcases pathJoin_part d n h with ⟨e, _⟩ | ⟨e, he, _⟩
  · rw [e]
    unfold lastPart
    have : n.reverse.takeWhile (fun c => decide (c ≠ '/')) = n.reverse := by
      have t : ∀ l : Str, (∀ c ∈ l, decide (c ≠ '/') = true) → l.takeWhile (fun c => decide (c ≠ '/')) = l := by
        intro l
        induction l with
        | nil => intro _; rfl
        | cons a l ih =>
          intro hl
          have ha := hl a (by simp)
          rw [List.takeWhile_cons, if_pos ha, ih (fun c hc => hl c (by simp [hc]))]
      exact t _ hr
    rw [this, List.reverse_reverse]
  · rw [he]
    unfold lastPart
    rw [List.reverse_append, List.reverse_cons, List.append_assoc, List.singleton_append,
      takeWhile_all hr (by simp), List.reverse_reverse]

theorem stagingDir_join {home : Str → Option Str} {c : Clu} {d : Str} (h : stagingDir home c = some d) :
    ∃ b, d = pathJoin b c.name := by
  unfold stagingDir at h
  split at h
  · cases h
  · rename_i hm _
    cases hf : format c.conf.stagingDirectory [("home".toList, hm), ("username".toList, c.user)] with
    | none => rw [hf] at h; cases h
    | some b => rw [hf] at h; cases h; exact ⟨b, rfl⟩

/-- C120. Clusters with different names have different staging directories, whoever they belong to and whatever the
configured template is. -/
theorem C120_own_directory (home : Str → Option Str) (c₁ c₂ : Clu) (d₁ d₂ : Str) (h₁ : stagingDir home c₁ = some d₁)
    (h₂ : stagingDir home c₂ = some d₂) (n₁ : Part c₁.name) (n₂ : Part c₂.name) (hne : c₁.name ≠ c₂.name) : d₁ ≠ d₂ := by
  obtain ⟨b₁, rfl⟩ := stagingDir_join h₁
  obtain ⟨b₂, rfl⟩ := stagingDir_join h₂
  intro e
  have := congrArg lastPart e
  rw [lastPart_join _ _ n₁, lastPart_join _ _ n₂] at this
  exact hne this

theorem append_slash_inj {a b n m r : Str} (hn : '/' ∉ n) (hm : '/' ∉ m) (h : a ++ '/' :: m = a ++ '/' :: n ++ '/' :: r) : False := by
  rw [List.append_assoc, List.cons_append] at h
  have h := List.append_cancel_left h
  injection h with _ h
  apply hm
  rw [h]
  simp

/-- C120. For clusters of one user with one template, neither directory lies within the other: removing one leaves the
other as it is. -/
theorem C120_not_nested (home : Str → Option Str) (c₁ c₂ : Clu) (d₁ d₂ : Str) (h₁ : stagingDir home c₁ = some d₁)
    (h₂ : stagingDir home c₂ = some d₂) (n₁ : Part c₁.name) (n₂ : Part c₂.name) (hu : c₁.user = c₂.user)
    (ht : c₁.conf.stagingDirectory = c₂.conf.stagingDirectory) : ¬ Within d₁ d₂ := by
  have key : ∀ b : Str, ¬ Within (pathJoin b c₁.name) (pathJoin b c₂.name) := by
    rintro b ⟨r, hr⟩
    rcases pathJoin_part b c₁.name n₁ with ⟨e1, hb⟩ | ⟨e1, he1, hb1⟩
    · subst hb
      rcases pathJoin_part [] c₂.name n₂ with ⟨e2, _⟩ | ⟨e2, he2, hb2⟩
      · rw [e1, e2] at hr
        exact n₂.2 (by rw [hr]; simp)
      · rcases hb2 with hb2 | hb2
        · simp at hb2
        · subst hb2
          have : pathJoin [] c₂.name = c₂.name := by
            unfold pathJoin
            rw [if_neg ?_, if_pos (Or.inl rfl)]
            · rfl
            · cases hc : c₂.name with
              | nil => simp
              | cons x y =>
                intro e
                cases e
                exact n₂.2 (by rw [hc]; simp)
          rw [this] at he2
          exact n₂.2 (by rw [he2]; simp)
    · rcases pathJoin_part b c₂.name n₂ with ⟨e2, hb⟩ | ⟨e2, he2, hb2⟩
      · subst hb
        rw [he1, e2] at hr
        exact n₂.2 (by rw [hr]; simp)
      · have hee : e1 = e2 := by
          have j : ∀ (x y : Str), pathJoin b x = y → True := fun _ _ _ => trivial
          by_cases hs : b.getLast? = some '/'
          · have l1 : b = e1 ++ ['/'] := by
              rcases hb1 with h | h
              · exact h
              · exfalso
                subst h
                unfold pathJoin at he1
                have hne : c₁.name.head? ≠ some '/' := by
                  intro e
                  cases hc : c₁.name with
                  | nil => rw [hc] at e; cases e
                  | cons x y => rw [hc] at e; cases e; exact n₁.2 (by rw [hc]; simp)
                rw [if_neg hne, if_pos (Or.inr hs)] at he1
                have := congrArg List.length he1
                simp at this
            have l2 : b = e2 ++ ['/'] := by
              rcases hb2 with h | h
              · exact h
              · exfalso
                subst h
                unfold pathJoin at he2
                have hne : c₂.name.head? ≠ some '/' := by
                  intro e
                  cases hc : c₂.name with
                  | nil => rw [hc] at e; cases e
                  | cons x y => rw [hc] at e; cases e; exact n₂.2 (by rw [hc]; simp)
                rw [if_neg hne, if_pos (Or.inr hs)] at he2
                have := congrArg List.length he2
                simp at this
            exact List.append_cancel_right (l1.symm.trans l2)
          · have l1 : b = e1 := by
              rcases hb1 with h | h
              · exact absurd (by rw [h, List.getLast?_append]; rfl) hs
              · exact h
            have l2 : b = e2 := by
              rcases hb2 with h | h
              · exact absurd (by rw [h, List.getLast?_append]; rfl) hs
              · exact h
            exact l1.symm.trans l2
        subst hee
        rw [he1, he2] at hr
        exact append_slash_inj (b := []) n₁.2 n₂.2 hr
  unfold stagingDir at h₁ h₂
  rw [hu, ht] at h₁
  cases hm : home c₂.user with
  | none => rw [hm] at h₁; cases h₁
  | some hd =>
    rw [hm] at h₁ h₂
    dsimp only at h₁ h₂
    cases hf : format c₂.conf.stagingDirectory [("home".toList, hd), ("username".toList, c₂.user)] with
    | none => rw [hf] at h₁; cases h₁
    | some b =>
      rw [hf] at h₁ h₂
      cases h₁
      cases h₂
      exact key b

theorem join_end (b n : Str) (h : Part n) : pathJoin b n ≠ [] ∧ (pathJoin b n).getLast? ≠ some '/' := by
  have hl : ∀ e : Str, (e ++ n).getLast? ≠ some '/' := by
    intro e
    rw [List.getLast?_append]
    cases hn : n.getLast? with
    | none => rw [List.getLast?_eq_none_iff] at hn; exact absurd hn h.1
    | some c =>
      intro hc
      cases hc
      exact h.2 (List.mem_of_getLast? hn)
  rcases pathJoin_part b n h with ⟨e, _⟩ | ⟨e, he, _⟩
  · rw [e]
    exact ⟨h.1, by simpa using hl []⟩
  · rw [he]
    refine ⟨by simp, ?_⟩
    have := hl (e ++ ['/'])
    rwa [List.append_assoc, List.singleton_append] at this

/-- C120. The paths that schedulers and workers are given for the certificate and the key are those of the two files
in the staging directory of their own cluster. -/
theorem C120_paths (home : Str → Option Str) (c : Clu) (hn : Part c.name) (cert key : Str)
    (h : tlsPaths home c = some (cert, key)) :
    ∃ d, stagingDir home c = some d ∧ cert = d ++ "/dask.crt".toList ∧ key = d ++ "/dask.pem".toList := by
  unfold tlsPaths at h
  cases hd : stagingDir home c with
  | none => rw [hd] at h; cases h
  | some d =>
    rw [hd] at h
    cases h
    obtain ⟨b, rfl⟩ := stagingDir_join hd
    obtain ⟨e1, e2⟩ := join_end b c.name hn
    refine ⟨_, rfl, ?_, ?_⟩ <;>
      (generalize pathJoin b c.name = d at e1 e2
       unfold pathJoin
       rw [if_neg (by decide), if_neg (by rintro (h | h); exact e1 h; exact e2 h)]
       rfl)

/-! ### C121: what a cluster leaves behind -/

theorem run_snoc (cert key : Str) (ops : List LifeOp) (o : LifeOp) :
    Life.run cert key (ops ++ [o]) = (Life.run cert key ops).step cert key o := by
  unfold Life.run; rw [List.foldl_append]; rfl

/-- A job runs with the two files of its cluster in the staging directory: whenever the batch system takes a job of a
cluster, the directory holds the cluster's certificate and key. -/
theorem C120_credentials_there (cert key : Str) (s : Life) (o : LifeOp) (id : Str)
    (h : (s.step cert key o).jobs.count id > s.jobs.count id) :
    (s.step cert key o).dir = some [("dask.pem".toList, key), ("dask.crt".toList, cert)] := by
  cases o with
  | stop a died =>
    exfalso
    simp only [Life.step, Life.stop] at h
    by_cases h1 : s.phase = .ended
    · rw [if_pos h1] at h; omega
    · rw [if_neg h1] at h
      have key : (s.release a).jobs.count id ≤ s.jobs.count id := by
        unfold Life.release
        split
        · exact Nat.le_refl _
        · split
          · exact Nat.le_refl _
          · split
            · exact Nat.le_refl _
            · dsimp only
              split
              · exact List.Sublist.count_le _ List.erase_sublist
              · exact Nat.le_refl _
      cases died
      · simp only [Bool.false_eq_true, if_false] at h; omega
      · simp only [if_true] at h; omega
  | start e =>
    simp only [Life.step, Life.start] at h ⊢
    by_cases h1 : s.phase ≠ .created
    · rw [if_pos h1] at h; omega
    rw [if_neg h1] at h ⊢
    by_cases h2 : e.user = false
    · rw [if_pos h2] at h; simp only [Life.failed] at h; omega
    rw [if_neg h2] at h ⊢
    by_cases h3 : s.dir.isSome ∨ e.mkdir = false
    · rw [if_pos h3] at h; simp only [Life.failed] at h; omega
    rw [if_neg h3] at h ⊢
    by_cases h4 : e.files < 2
    · rw [if_pos h4] at h; simp only [Life.failed] at h; omega
    rw [if_neg h4] at h ⊢
    cases ha : e.accept with
    | none => rw [ha] at h; simp only [Life.failed] at h; omega
    | some j =>
      cases e.answer <;> rfl

/-- The start went as it should: nothing was made, or all of it and the gateway knows. -/
def StartEv.clean (e : StartEv) : Prop :=
  (e.user = false ∨ e.mkdir = false) ∨ (2 ≤ e.files ∧ e.accept ≠ none ∧ e.answer = .received)

/-- The events of a history in which starts go as they should and stops can remove the directory and cancel jobs. -/
def CleanOp : LifeOp → Prop
  | .start e => e.clean
  | .stop a _ => a.removable = true ∧ a.cancels = true

/-- What is there is known: the invariant of clean histories. -/
def Tracked (cert key : Str) (s : Life) : Prop :=
  (s.dir = none ∧ s.jobs = []) ∨
    ∃ id, s.phase = .submitted ∧ s.saved = some id ∧ s.jobs = [id] ∧ s.dir = some (credentials cert key)

theorem tracked_run (cert key : Str) (ops : List LifeOp) (h : ∀ o ∈ ops, CleanOp o) :
    Tracked cert key (Life.run cert key ops) := by
  induction ops using Router.snoc_induction with
  | nil => exact Or.inl ⟨rfl, rfl⟩
  | snoc ops o ih =>
    have ih := ih (fun x hx => h x (by simp [hx]))
    have ho := h o (by simp)
    rw [run_snoc]
    generalize Life.run cert key ops = s at ih
    cases o with
    | start e =>
      simp only [Life.step, Life.start]
      by_cases h1 : s.phase ≠ .created
      · rw [if_pos h1]; exact ih
      rw [if_neg h1]
      have hc : s.phase = .created := Classical.not_not.mp h1
      have ih : s.dir = none ∧ s.jobs = [] := by
        rcases ih with ih | ⟨_, ih, _⟩
        · exact ih
        · rw [hc] at ih; cases ih
      by_cases h2 : e.user = false
      · rw [if_pos h2]; exact Or.inl ih
      rw [if_neg h2]
      by_cases h3 : s.dir.isSome ∨ e.mkdir = false
      · rw [if_pos h3]; exact Or.inl ih
      rw [if_neg h3]
      rcases ho with ho | ⟨o1, o2, o3⟩
      · rcases ho with ho | ho
        · exact absurd ho h2
        · exact absurd (Or.inr ho) h3
      rw [if_neg (by omega), o3]
      cases ha : e.accept with
      | none => exact absurd ha o2
      | some id => exact Or.inr ⟨id, rfl, rfl, by simp [ih.2], rfl⟩
    | stop a died =>
      simp only [Life.step, Life.stop]
      by_cases h1 : s.phase = .ended
      · rw [if_pos h1]; exact ih
      rw [if_neg h1]
      obtain ⟨ho1, ho2⟩ := ho
      rcases ih with ⟨i1, i2⟩ | ⟨id, i1, i2, i3, i4⟩
      · have e : s.release a = s := by
          unfold Life.release
          split
          · rfl
          · rw [if_pos i1]
        rw [e]
        cases died
        · exact Or.inl ⟨i1, i2⟩
        · exact Or.inl ⟨i1, i2⟩
      · have e : s.release a = { s with dir := none, jobs := [] } := by
          unfold Life.release
          rw [i2]
          dsimp only
          rw [if_neg (by rw [i4]; simp), if_neg (by rw [ho1]; simp), ho2, i3]
          simp
        rw [e]
        cases died
        · exact Or.inl ⟨rfl, rfl⟩
        · exact Or.inl ⟨rfl, rfl⟩

/-- C121 (partial: for starts that make nothing or end well and are recorded, and stops whose commands work). When a
cluster on a batch system has ended, its staging directory with the key is gone and it has no job; before that, the
directory holds its credentials exactly while its job is there. -/
theorem C121_nothing_left_partial (cert key : Str) (ops : List LifeOp) (h : ∀ o ∈ ops, CleanOp o) :
    ((Life.run cert key ops).phase = .ended → (Life.run cert key ops).dir = none ∧ (Life.run cert key ops).jobs = []) ∧
      ((Life.run cert key ops).jobs ≠ [] →
        (Life.run cert key ops).dir = some [("dask.pem".toList, key), ("dask.crt".toList, cert)]) ∧
      ((Life.run cert key ops).dir ≠ none → (Life.run cert key ops).jobs ≠ []) := by
  have ht := tracked_run cert key ops h
  generalize Life.run cert key ops = s at ht
  rcases ht with ⟨h1, h2⟩ | ⟨id, h1, h2, h3, h4⟩
  · exact ⟨fun _ => ⟨h1, h2⟩, fun h => absurd h2 h, fun h => absurd h1 h⟩
  · exact ⟨fun h => (by rw [h1] at h; cases h), fun _ => h4, fun _ => (by rw [h3]; simp)⟩

/-- A cluster whose directory exists but is not recorded keeps it, and its jobs, through anything that comes. -/
theorem unknown_stays (cert key : Str) (s : Life) (d : List (Str × Str)) (j : List Str) (hs : s.saved = none)
    (hd : s.dir = some d) (hj : s.jobs = j) (ops : List LifeOp) :
    (ops.foldl (Life.step cert key) s).dir = some d ∧ (ops.foldl (Life.step cert key) s).jobs = j ∧
      (ops.foldl (Life.step cert key) s).saved = none := by
  induction ops generalizing s with
  | nil => exact ⟨hd, hj, hs⟩
  | cons o ops ih =>
    rw [List.foldl_cons]
    have hstep : (s.step cert key o).saved = none ∧ (s.step cert key o).dir = some d ∧ (s.step cert key o).jobs = j := by
      cases o with
      | start e =>
        simp only [Life.step, Life.start]
        by_cases h1 : s.phase ≠ .created
        · rw [if_pos h1]; exact ⟨hs, hd, hj⟩
        rw [if_neg h1]
        by_cases h2 : e.user = false
        · rw [if_pos h2]; exact ⟨hs, hd, hj⟩
        rw [if_neg h2, if_pos (Or.inl (by rw [hd]; rfl))]
        exact ⟨hs, hd, hj⟩
      | stop a died =>
        simp only [Life.step, Life.stop]
        by_cases h1 : s.phase = .ended
        · rw [if_pos h1]; exact ⟨hs, hd, hj⟩
        have e : s.release a = s := by unfold Life.release; rw [hs]
        rw [if_neg h1, e]
        cases died <;> exact ⟨hs, hd, hj⟩
    exact ih _ hstep.1 hstep.2.1 hstep.2.2

/-- The batch system turns the job down. -/
def refused : StartEv := { user := true, mkdir := true, files := 2, accept := none, answer := .received }

/-- The batch system takes the job, and the gateway does not learn of it. -/
def orphaned (id : Str) (a : Answer) : StartEv := { user := true, mkdir := true, files := 2, accept := some id, answer := a }

/-- C121 is violated: if the batch system turns the job down, the private key of the cluster stays in the staging
directory for good, whatever happens afterwards. -/
theorem C121_nothing_left_violated (cert key : Str) (ops : List LifeOp) :
    (Life.run cert key (.start refused :: ops)).dir = some [("dask.pem".toList, key), ("dask.crt".toList, cert)] := by
  exact (unknown_stays cert key _ _ [] rfl rfl rfl ops).1

/-- C121 is violated: if the answer to the submission is lost, or the gateway's process ends before the answer is
recorded, the job runs on and the key stays, whatever happens afterwards (a further start fails at the directory). -/
theorem C121_orphan_violated (cert key id : Str) (a : Answer) (ha : a ≠ .received) (ops : List LifeOp) :
    (Life.run cert key (.start (orphaned id a) :: ops)).dir = some [("dask.pem".toList, key), ("dask.crt".toList, cert)] ∧
      (Life.run cert key (.start (orphaned id a) :: ops)).jobs = [id] := by
  cases a with
  | received => exact absurd rfl ha
  | lost =>
    have := unknown_stays cert key (Life.init.step cert key (.start (orphaned id .lost))) _ [id] rfl rfl rfl ops
    exact ⟨this.1, this.2.1⟩
  | died =>
    have := unknown_stays cert key (Life.init.step cert key (.start (orphaned id .died))) _ [id] rfl rfl rfl ops
    exact ⟨this.1, this.2.1⟩

/-! #### The local backend -/

/-- A new cluster of the local backend. -/
def Local.init : Local := { dir := none, procs := [], phase := .created, savedDir := false, savedPid := none }

/-- C121 for the local backend (partial: for starts that get as far as recording the directory, or make nothing). After
the stop the directory with the key is gone, and the process has been stopped. -/
theorem C121_local_partial (cert key : Str) (r : Reach) (h : ∀ n, r ≠ .directory n) :
    ((Local.init.start cert key r).stop true true).dir = none ∧ ((Local.init.start cert key r).stop true true).procs = [] := by
  cases r with
  | nothing => exact ⟨rfl, rfl⟩
  | directory n => exact absurd rfl (h n)
  | stored => exact ⟨rfl, rfl⟩
  | process pid => exact ⟨rfl, by simp [Local.stop, Local.start, Local.init]⟩

/-- C121 is violated by the local backend: if an exception comes after the files were written and before the directory
is recorded, the key stays. By `Backends.C83_root_violated` this is what happens at every start that sets owners, unless there
are files with one-letter names. -/
theorem C121_local_violated (cert key : Str) (ends removable : Bool) :
    ((Local.init.start cert key (.directory 2)).stop ends removable).dir =
      some [("dask.crt".toList, cert), ("dask.pem".toList, key)] := by
  cases ends <;> cases removable <;> rfl

/-! ### C124: the user a job runs as -/

/-- The accounts of the system. -/
abbrev Accounts := List (Str × Nat)

/-- Which account `sudo -u arg` uses (sudo(8)): a number after `#`, or a name. -/
def sudoUid (db : Accounts) : Str → Option Nat
  | '#' :: digits => if digits ≠ [] ∧ digits.all Char.isDigit then some (digits.foldl (fun n d => 10 * n + (d.toNat - 48)) 0) else none
  | name => lookup db name

/-- What `sudo` does with a command line of this form: the account and the command (sudo(8): `-n` and `-H` take no
argument, `-u` takes the next one). -/
def sudoRun (db : Accounts) : List Str → Option (Nat × List Str)
  | prog :: flags :: user :: cmd =>
    if prog = "sudo".toList ∧ flags = "-nHu".toList then (sudoUid db user).map (fun u => (u, cmd)) else none
  | _ => none

/-- C124. A job is submitted as the account of the user the cluster belongs to, and as no other: for every user name,
also one like `#0`, if a submission is made at all, then `sudo` runs the launcher as the account that has this name. No
account may have a name that starts with `#`. -/
theorem C124_own_account (db : Accounts) (homes : Str → Option Str) (b : Sys) (c : Clu)
    (hdb : ∀ n, (homes n).isSome = (lookup db n).isSome) (hn : ∀ n u, lookup db n = some u → n.head? ≠ some '#')
    (worker : Option Str)
    (s : Submission) (h : slurmSubmit homes b c worker = some s ∨ pbsSubmit homes b c worker = some s) :
    ∃ uid, lookup db c.user = some uid ∧ sudoRun db (asUser b c.user) = some (uid, [b.launcher]) := by
  have hh : (homes c.user).isSome := by
    have : ∀ d, stagingDir homes c = some d → (homes c.user).isSome := by
      intro d hd
      unfold stagingDir at hd
      cases hu : homes c.user with
      | none => rw [hu] at hd; cases hd
      | some _ => rfl
    rcases h with h | h
    · unfold slurmSubmit at h
      split at h
      · exact this _ (by assumption)
      · cases h
    · cases hd : stagingDir homes c with
      | some d => exact this d hd
      | none =>
        exfalso
        unfold pbsSubmit pbsTlsPaths tlsPaths at h
        rw [hd] at h
        cases hs : c.conf.useStagein <;> rw [hs] at h <;> dsimp only at h <;> split at h <;> simp_all
  rw [hdb] at hh
  cases hu : lookup db c.user with
  | none => rw [hu] at hh; cases hh
  | some uid =>
    refine ⟨uid, rfl, ?_⟩
    have : sudoUid db c.user = some uid := by
      unfold sudoUid
      split
      · rename_i digits e
        exact absurd (by rw [e]; rfl) (hn _ _ hu)
      · exact hu
    simp [asUser, sudoRun, this]

end Verif.Batch
