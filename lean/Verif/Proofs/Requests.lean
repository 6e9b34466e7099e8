import Verif.Spec.Requests
import Verif.Spec.Authn
import Verif.Proofs.Fields
import Verif.Model.Process

namespace Verif

theorem parseCreate_fits {ix : Bytes} {a : CreateIx} (h : parseCreate ix = .ok a) : 40 + rd ix 4 2 ≤ ix.length := by
  unfold parseCreate at h
  split at h
  · cases h
  dsimp only at h
  split at h
  · cases h
  · simp at *; omega

theorem parseAdd_fits {ix : Bytes} {a : AddIx} (h : parseAdd ix = .ok a) : 16 + (rd ix 2 2 + rd ix 4 2) ≤ ix.length := by
  unfold parseAdd at h
  split at h
  · cases h
  dsimp only at h
  split at h
  · cases h
  · omega

theorem parseRemove_fits {ix : Bytes} {a : RemoveIx} (h : parseRemove ix = .ok a) : 16 ≤ ix.length := by
  unfold parseRemove at h
  split at h
  · cases h
  · omega

theorem parseUpdate_fits {ix : Bytes} {a : UpdateIx} (h : parseUpdate ix = .ok a) : 16 + rd ix 2 2 ≤ ix.length := by
  unfold parseUpdate at h
  split at h
  · cases h
  dsimp only at h
  split at h
  · cases h
  · omega

theorem parseClaimer_fits {ix : Bytes} {a : ClaimerIx} (h : parseClaimer ix = .ok a) : 40 ≤ ix.length := by
  unfold parseClaimer at h
  split at h
  · cases h
  · omega

theorem parseSession_fits {ix : Bytes} {a : SessionIx} (h : parseSession ix = .ok a) : 48 ≤ ix.length := by
  unfold parseSession at h
  split at h
  · cases h
  · omega

theorem parseReplace_fits {ix : Bytes} {a : ReplaceIx} (h : parseReplace ix = .ok a) : 16 + rd ix 12 2 ≤ ix.length := by
  unfold parseReplace at h
  split at h
  · cases h
  split at h
  · cases h
  dsimp only at h
  split at h
  · cases h
  split at h
  · cases h
  · omega

theorem parseRoleIx_fits {ix : Bytes} {e : Err} {a : RoleIx} (h : parseRoleIx ix e = .ok a) : 8 ≤ ix.length := by
  unfold parseRoleIx at h
  split at h
  · cases h
  · omega

theorem parseSign_fits {ix : Bytes} {a : SignIx} (h : parseSign ix = .ok a) : 8 + rd ix 2 2 ≤ ix.length := by
  unfold parseSign at h
  split at h
  · cases h
  dsimp only at h
  split at h
  · cases h
  · omega

theorem parseSubSign_fits {ix : Bytes} {a : SubSignIx} (h : parseSubSign ix = .ok a) : 16 + rd ix 2 2 ≤ ix.length := by
  unfold parseSubSign at h
  split at h
  · cases h
  dsimp only at h
  split at h
  · cases h
  · omega

theorem parseSubSignV2_fits {ix : Bytes} {a : SubSignV2Ix} (h : parseSubSignV2 ix = .ok a) : 16 + rd ix 2 2 ≤ ix.length := by
  unfold parseSubSignV2 at h
  split at h
  · cases h
  dsimp only at h
  split at h
  · cases h
  · omega

/-- Follow the steps of a handler until one has looked at the length. -/
macro "fits" h:ident "via" t:term : tactic => `(tactic| (
  repeat (
    obtain ⟨_, hq, $h:ident⟩ := bind_ok_iff.mp $h
    try with_reducible exact $t hq)))

section
variable {env : Env} {cpi : Cpi} {m m' : Mem} {metas : List Meta} {cls : List Class} {ix : Bytes}

theorem add_fits (h : addAuthorityV1 env m metas ix = .ok m') : 16 + (rd ix 2 2 + rd ix 4 2) ≤ ix.length := by
  unfold addAuthorityV1 at h; split at h; (· fits h via parseAdd_fits); cases h
theorem remove_fits (h : removeAuthorityV1 env m metas ix = .ok m') : 16 ≤ ix.length := by
  unfold removeAuthorityV1 at h; split at h; (· fits h via parseRemove_fits); cases h
theorem update_fits (h : updateAuthorityV1 env m metas ix = .ok m') : 16 + rd ix 2 2 ≤ ix.length := by
  unfold updateAuthorityV1 at h; split at h; (· fits h via parseUpdate_fits); cases h
theorem session_fits (h : createSessionV1 env m metas ix = .ok m') : 48 ≤ ix.length := by
  unfold createSessionV1 at h; split at h; (· fits h via parseSession_fits); cases h
theorem createSubV1_fits (h : createSubV1 env m metas ix = .ok m') : 16 ≤ ix.length := by
  unfold createSubV1 at h; split at h; (· fits h via require_ok_iff.mp); cases h
theorem withdrawSubV1_fits (h : withdrawSubV1 env cpi m metas ix = .ok m') : 16 ≤ ix.length := by
  unfold withdrawSubV1 at h; split at h; (· fits h via require_ok_iff.mp); cases h
theorem subSignV1_fits (h : subSignV1 env cpi m metas ix = .ok m') : 16 + rd ix 2 2 ≤ ix.length := by
  unfold subSignV1 at h; split at h; (· fits h via parseSubSign_fits); cases h
theorem toggleSubV1_fits (h : toggleSubV1 env m metas ix = .ok m') : 16 ≤ ix.length := by
  unfold toggleSubV1 at h; split at h; (· fits h via require_ok_iff.mp); cases h
theorem sign_fits (h : signV2 env cpi m metas cls ix = .ok m') : 8 + rd ix 2 2 ≤ ix.length := by
  unfold signV2 at h; split at h; (· fits h via parseSign_fits); cases h
theorem migrate_fits (h : migrateV1 env m metas ix = .ok m') : 8 ≤ ix.length := by
  unfold migrateV1 at h; split at h; (· fits h via parseRoleIx_fits); cases h
theorem transfer_fits (h : transferAssetsV1 env cpi m metas ix = .ok m') : 8 ≤ ix.length := by
  unfold transferAssetsV1 at h; split at h; (· fits h via parseRoleIx_fits); cases h
theorem closeToken_fits (h : closeTokenV1 env cpi m metas ix = .ok m') : 8 ≤ ix.length := by
  unfold closeTokenV1 at h; split at h; (· fits h via parseRoleIx_fits); cases h
theorem closeSwig_fits (h : closeSwigV1 env m metas ix = .ok m') : 8 ≤ ix.length := by
  unfold closeSwigV1 at h; split at h; (· fits h via parseRoleIx_fits); cases h
theorem replace_fits (h : replaceAuthorityV1 env m metas ix = .ok m') : 16 + rd ix 12 2 ≤ ix.length := by
  unfold replaceAuthorityV1 at h; split at h; (· fits h via parseReplace_fits); cases h
theorem claimer_fits (h : setRentClaimerV1 env m metas ix = .ok m') : 40 ≤ ix.length := by
  unfold setRentClaimerV1 at h; split at h; (· fits h via parseClaimer_fits); cases h
theorem createSubV2_fits (h : createSubV2 env m metas ix = .ok m') : 16 ≤ ix.length := by
  unfold createSubV2 at h; split at h; (· fits h via require_ok_iff.mp); cases h
theorem toggleSubV2_fits (h : toggleSubV2 env m metas ix = .ok m') : 16 ≤ ix.length := by
  unfold toggleSubV2 at h; split at h; (· fits h via require_ok_iff.mp); cases h
theorem subSignV2_fits (h : subSignV2 env cpi m metas ix = .ok m') : 16 + rd ix 2 2 ≤ ix.length := by
  unfold subSignV2 at h; split at h; (· fits h via parseSubSignV2_fits); cases h
theorem withdrawSubV2_fits (h : withdrawSubV2 env cpi m metas ix = .ok m') : 24 ≤ ix.length := by
  unfold withdrawSubV2 at h; split at h; (· fits h via require_ok_iff.mp); cases h
theorem create_fits (h : createV1 env m metas ix = .ok m') : 40 + rd ix 4 2 ≤ ix.length := by
  unfold createV1 at h; split at h
  · obtain ⟨_, hq, h⟩ := bind_ok_iff.mp h
    unfold createChecks at hq
    obtain ⟨_, _, hq⟩ := bind_ok_iff.mp hq
    obtain ⟨_, _, hq⟩ := bind_ok_iff.mp hq
    obtain ⟨_, hp, hq⟩ := bind_ok_iff.mp hq
    exact parseCreate_fits hp
  · cases h

end

end Verif
