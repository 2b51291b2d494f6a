import Verif.Agg.Run
import Verif.Agg.Spec
/- Invariants preserved by every command hold in all reachable states, interleaved or not. -/
namespace OpenNSA

section
variable {C : Type → Type} {ε W : Type} (m : Machine C ε W) (I : W → Prop)

theorem Coro.run_inv (hc : ∀ {β : Type} (c : C β) w, I w → I (m.exec w c).1) {α : Type} (p : Coro C ε α) :
    ∀ w, I w → I (p.run m w).1 := by
  induction p with
  | pure a => intro w h; exact h
  | throw e => intro w h; exact h
  | cmd c k ih => intro w h; exact ih _ _ (hc c w h)

theorem Conc.runSync_inv {ρ : Type} (hc : ∀ {β : Type} (c : C β) w, I w → I (m.exec w c).1) (id : Nat) (p : Coro C ε ρ) :
    ∀ s : Conc C ε ρ W, I s.w → I (Conc.runSync m id p s).w := by
  induction p with
  | pure a => intro w h; exact h
  | throw e => intro w h; exact h
  | cmd c k ih =>
    intro s h
    simp only [Conc.runSync]
    split
    · exact h
    · exact ih _ _ (hc c s.w h)

theorem Conc.step_inv {ρ Q : Type} (hc : ∀ {β : Type} (c : C β) w, I w → I (m.exec w c).1) (prog : Q → Coro C ε ρ)
    (s : Conc C ε ρ W) (ch : Conc.Choice Q) (h : I s.w) : I (Conc.step m prog s ch).w := by
  cases ch with
  | start q => exact Conc.runSync_inv m I hc _ _ _ h
  | perform n =>
    simp only [Conc.step]
    split
    · exact hc _ _ h
    · exact h
  | resume n =>
    simp only [Conc.step]
    split
    · exact Conc.runSync_inv m I hc _ _ _ h
    · exact h
end

namespace Agg

theorem Reach.inv {cfg : Cfg} (I : World → Prop) (h0 : I .init) (ho : ∀ w o, I w → I { w with orc := o })
    (hr : ∀ w, I w → I w.restart) (hc : ∀ {β : Type} (c : Cmd β) w, I w → I (exec w c).1) {s : Sys} (h : Reach cfg s) : I s.w := by
  induction h with
  | init => exact h0
  | step _ o ch ih => exact Conc.step_inv machine I hc _ _ _ (ho _ _ ih)
  | restart _ ih => exact hr _ ih

theorem SReach.inv {cfg : Cfg} (I : World → Prop) (h0 : I .init) (ho : ∀ w o, I w → I { w with orc := o })
    (hr : ∀ w, I w → I w.restart) (hc : ∀ {β : Type} (c : Cmd β) w, I w → I (exec w c).1) {w : World} (h : SReach cfg w) : I w := by
  induction h with
  | init => exact h0
  | step _ o m ih => exact Coro.run_inv machine I hc _ _ (ho _ _ ih)
  | restart _ ih => exact hr _ ih

theorem acks_frame (n : Nat) : ∀ w : World, (w.acks n).1 = { w with orc := (w.acks n).1.orc } := by
  induction n with
  | zero => intro w; rfl
  | succ n ih =>
    intro w
    cases ha : w.orc.acks with
    | nil => simp only [World.acks, ha]; exact ih w
    | cons a as => simp only [World.acks, ha]; exact ih _

theorem findSubs_frame (l : List (Str × Str)) : ∀ w : World, (w.findSubs l).1 = { w with sheap := (w.findSubs l).1.sheap } := by
  induction l with
  | nil => intro w; rfl
  | cons x xs ih =>
    intro w
    simp only [World.findSubs]
    rw [ih]
    unfold World.findSub
    split <;> rfl

/-! ### Keys -/

/-- Keys of connection rows are below the next key. -/
def KeysC (w : World) : Prop := ∀ r ∈ w.conns, r.key < w.ckey

theorem keysC_setCRow {rows : List CRow} {row : CRow} {n : Nat} (h : ∀ r ∈ rows, r.key < n) :
    ∀ r ∈ setCRow rows row, r.key < n := by
  intro r hr
  obtain ⟨r0, h0, rfl⟩ := List.mem_map.mp hr
  split
  · rename_i he; exact he ▸ h _ h0
  · exact h _ h0

theorem saveS_frameC (w : World) (ref : Nat) : (w.saveS ref).1.conns = w.conns ∧ (w.saveS ref).1.ckey = w.ckey := by
  unfold World.saveS
  split
  · exact ⟨rfl, rfl⟩
  · split
    · split <;> exact ⟨rfl, rfl⟩
    · exact ⟨rfl, rfl⟩

theorem saveSs_frameC (refs : List Nat) : ∀ w : World, (w.saveSs refs).conns = w.conns ∧ (w.saveSs refs).ckey = w.ckey := by
  induction refs with
  | nil => intro w; exact ⟨rfl, rfl⟩
  | cons r rs ih =>
    intro w
    simp only [World.saveSs]
    rw [(ih _).1, (ih _).2]
    exact saveS_frameC w r

theorem keysC_exec {β : Type} (c : Cmd β) (w : World) (h : KeysC w) : KeysC (exec w c).1 := by
  cases c with
  | saveC ref =>
    simp only [exec_saveC, World.saveC]
    split
    · exact h
    · split
      · split
        · exact h
        · intro r hr
          rcases List.mem_append.mp hr with hr | hr
          · exact Nat.lt_succ_of_lt (h r hr)
          · rw [List.mem_singleton.mp hr]; exact Nat.lt_succ_self _
      · exact keysC_setCRow h
  | saveS ref =>
    unfold KeysC
    rw [exec_saveS, (saveS_frameC w ref).1, (saveS_frameC w ref).2]; exact h
  | saveSs refs =>
    unfold KeysC
    rw [exec_saveSs, (saveSs_frameC refs w).1, (saveSs_frameC refs w).2]; exact h
  | acks n => rw [exec_acks, acks_frame]; exact h
  | findSubs l => rw [exec_findSubs, findSubs_frame]; exact h
  | findConn cid => simp only [exec]; split <;> exact h
  | newCid => rw [exec_newCid]; exact h
  | newCorr => rw [exec_newCorr]; exact h
  | getC ref => simp only [exec]; split <;> exact h
  | setC ref row => simp only [exec]; split <;> exact h
  | getS ref => simp only [exec]; split <;> exact h
  | setS ref row => simp only [exec]; split <;> exact h
  | _ => exact h

theorem Reach.keysC {cfg : Cfg} {s : Sys} (h : Reach cfg s) : KeysC s.w :=
  h.inv KeysC (by intro r hr; cases hr) (fun _ _ h => h) (fun _ h => h) (fun c w => keysC_exec c w)

theorem SReach.keysC {cfg : Cfg} {w : World} (h : SReach cfg w) : KeysC w :=
  h.inv KeysC (by intro r hr; cases hr) (fun _ _ h => h) (fun _ h => h) (fun c w => keysC_exec c w)

end Agg
end OpenNSA
