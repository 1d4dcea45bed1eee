import Verif.Conformance.Basic
/-
Generated by tools/conformance.py from /repo/tests/full_contract_tests.rs and /repo/tests/contracts: the contracts of
the project's own tests (but the three largest), evaluated on the model.  (Validation of the model, not proofs of
properties.)
-/
set_option maxRecDepth 100000
namespace Verif

/-- tests/contracts/staking_proxy_v2.scilla -/
def docstaking_proxy_v2 : Str := List.flatten [
  str! "scilla_version 0\n",
  str! "\n",
  str! "library SSNListProxy_V2\n",
  str! "\n",
  str! "let zero = Uint128 0\n",
  str! "\n",
  str! "let one_msg =\n",
  str! "  fun (m: Message) =>\n",
  str! "    let e = Nil {Message} in\n",
  str! "    Cons {Message} m e\n",
  str! "\n",
  str! "(***************************************************)\n",
  str! "(*             The contract definition             *)\n",
  str! "(***************************************************)\n",
  str! "contract SSNListProxy_V2(\n",
  str! "  init_implementation: ByStr20,\n",
  str! "  init_admin: ByStr20\n",
  str! ")\n",
  str! "\n",
  str! "(* Mutable fields *)\n",
  str! "field implementation: ByStr20 = init_implementation\n",
  str! "field admin: ByStr20 = init_admin\n",
  str! "field stagingadmin: Option ByStr20 = None {ByStr20}\n",
  str! "\n",
  str! "(***************************************************)\n",
  str! "(*                  Transition                     *)\n",
  str! "(***************************************************)\n",
  str! "\n",
  str! "(***************************************************)\n",
  str! "(*              Proxy Transition                   *)\n",
  str! "(***************************************************)\n",
  str! "transition UpgradeTo(newImplementation: ByStr20)\n",
  str! "    currentAdmin <- admin;\n",
  str! "    isAdmin = builtin eq currentAdmin _sender;\n",
  str! "    match isAdmin with\n",
  str! "    | True =>\n",
  str! "      implementation := newImplementation;\n",
  str! "      e = {_eventname: \"Upgraded\"; implementation_address: newImplementation};\n",
  str! "      event e\n",
  str! "    | False =>\n",
  str! "      e = {_eventname: \"upgradeTo FailedNotAdmin\"; newImplementation: newImplementation};\n",
  str! "      event e\n",
  str! "    end\n",
  str! "end\n",
  str! "\n",
  str! "transition ChangeProxyAdmin(newAdmin: ByStr20)\n",
  str! "    currentAdmin <- admin;\n",
  str! "    isAdmin = builtin eq currentAdmin _sender;\n",
  str! "    match isAdmin with\n",
  str! "    | True =>\n",
  str! "      new_staging_admin = Some {ByStr20} newAdmin;\n",
  str! "      stagingadmin := new_staging_admin;\n",
  str! "      e = {_eventname: \"ChangeProxyAdmin\"; oldAdmin: currentAdmin; newAdmin: newAdmin};\n",
  str! "      event e\n",
  str! "    | False =>\n",
  str! "      e = {_eventname: \"ChangeProxyAdmin FailedNotAdmin\"; newAdmin: newAdmin};\n",
  str! "      event e\n",
  str! "    end\n",
  str! "end\n",
  str! "\n",
  str! "transition ClaimProxyAdmin()\n",
  str! "    staging_admin_o <- stagingadmin;\n",
  str! "    match staging_admin_o with\n",
  str! "    | Some staging_admin =>\n",
  str! "      is_stagingadmin = builtin eq staging_admin _sender;\n",
  str! "      match is_stagingadmin with\n",
  str! "      | True =>\n",
  str! "        admin := _sender;\n",
  str! "        tmp_staging_admin = None {ByStr20};\n",
  str! "        stagingadmin := tmp_staging_admin;\n",
  str! "        e = {_eventname: \"ClaimProxyAdmin\"; newAdmin: _sender};\n",
  str! "        event e\n",
  str! "      | False =>\n",
  str! "        e = {_eventname: \"ClaimProxyAdmin FailedNotStagingadmin\"; newAdmin: _sender};\n",
  str! "        event e\n",
  str! "      end\n",
  str! "    | None =>\n",
  str! "      e = {_eventname: \"ClaimProxyAdmin FailedNoStagingadmin\"};\n",
  str! "      event e\n",
  str! "    end\n",
  str! "end\n",
  str! "\n",
  str! "(***************************************************)\n",
  str! "(*            House keeping transition             *)\n",
  str! "(***************************************************)\n",
  str! "transition OptInSSNToConsensusPoolAdminOverride(ssnaddr: ByStr20)\n",
  str! "    current_impl <- implementation;\n",
  str! "    msg = {_tag: \"OptInSSNToConsensusPoolAdminOverride\"; _recipient: current_impl; _amount: zero; ssnaddr: ssnaddr; initiator: _sender};\n",
  str! "    msgs = one_msg msg;\n",
  str! "    send msgs\n",
  str! "end\n",
  str! "\n",
  str! "transition OptOutSSNFromConsensusPoolAdminOverride(ssnaddr: ByStr20)\n",
  str! "    current_impl <- implementation;\n",
  str! "    msg = {_tag: \"OptOutSSNFromConsensusPoolAdminOverride\"; _recipient: current_impl; _amount: zero; ssnaddr: ssnaddr; initiator: _sender};\n",
  str! "    msgs = one_msg msg;\n",
  str! "    send msgs\n",
  str! "end\n",
  str! "\n",
  str! "transition RemoveFromConsensusPoolAdminOverride(ssnaddr: ByStr20)\n",
  str! "    current_impl <- implementation;\n",
  str! "    msg = {_tag: \"RemoveFromConsensusPoolAdminOverride\"; _recipient: current_impl; _amount: zero; ssnaddr: ssnaddr; initiator: _sender};\n",
  str! "    msgs = one_msg msg;\n",
  str! "    send msgs\n",
  str! "end\n",
  str! "\n",
  str! "transition ChangeMinCommissionRate(mincommrate_value: Uint128)\n",
  str! "    current_impl <- implementation;\n",
  str! "    msg = {_tag: \"ChangeMinCommissionRate\"; _recipient: current_impl; _amount: zero; mincommrate_value: mincommrate_value; initiator: _sender};\n",
  str! "    msgs = one_msg msg;\n",
  str! "    send msgs\n",
  str! "end\n",
  str! "\n",
  str! "transition AddSSNNonStaking(ssnaddr: ByStr20, name: String, urlraw: String, urlapi: String, comm: Uint128)\n",
  str! "    current_impl <- implementation;\n",
  str! "    msg = {_tag: \"AddSSNNonStaking\"; _recipient: current_impl; _amount: zero; ssnaddr: ssnaddr; name: name; urlraw: urlraw; urlapi: urlapi; comm: comm; initiator: _sender};\n",
  str! "    msgs = one_msg msg;\n",
  str! "    send msgs\n",
  str! "end\n",
  str! "\n",
  str! "(***************************************************)\n",
  str! "(*             SSN operator transition             *)\n",
  str! "(***************************************************)\n",
  str! "\n",
  str! "transition AddSSNToConsensusPool()\n",
  str! "    current_impl <- implementation;\n",
  str! "    msg = {_tag: \"AddSSNToConsensusPool\"; _recipient: current_impl; _amount: zero; initiator: _sender};\n",
  str! "    msgs = one_msg msg;\n",
  str! "    send msgs\n",
  str! "end\n",
  str! "\n",
  str! "transition RemoveSSNFromConsensusPool()\n",
  str! "    current_impl <- implementation;\n",
  str! "    msg = {_tag: \"RemoveSSNFromConsensusPool\"; _recipient: current_impl; _amount: zero; initiator: _sender};\n",
  str! "    msgs = one_msg msg;\n",
  str! "    send msgs\n",
  str! "end\n",
  str! "\n",
  str! "(***************************************************)\n",
  str! "(*                Delegator transition             *)\n",
  str! "(***************************************************)\n",
  str! "\n",
  str! "(* @dev: Withdraw stake reward . Can be called by a deleg. *)\n",
  str! "transition WithdrawStakeRewardsForCycles(ssnaddr: ByStr20, cycles: Uint32)\n",
  str! "    current_impl <- implementation;\n",
  str! "    msg = {_tag: \"WithdrawStakeRewardsForCycles\"; _recipient: current_impl; _amount: zero; ssnaddr: ssnaddr; cycles: cycles; initiator: _sender};\n",
  str! "    msgs = one_msg msg;\n",
  str! "    send msgs\n",
  str! "end\n",
  str! "\n",
  str! "\n",
  str! "(***************************************************)\n",
  str! "(*           Contract state migration              *)\n",
  str! "(***************************************************)\n",
  str! "\n",
  str! "transition CopySSNDelegAmt(ssn: ByStr20,\n",
  str! "    keys: List (Pair ByStr20 Uint128))\n",
  str! "    current_impl <- implementation;\n",
  str! "    msg = {_tag: \"CopySSNDelegAmt\"; _recipient: current_impl; _amount: zero; ssn: ssn; keys: keys; initiator: _sender};\n",
  str! "    msgs = one_msg msg;\n",
  str! "    send msgs\n",
  str! "end\n",
  str! "\n",
  str! "transition MigrateStakeSSNPerCycle(ssn: ByStr20,\n",
  str! "    keys: List (Pair Uint32 (Pair Uint128 Uint128)))\n",
  str! "    current_impl <- implementation;\n",
  str! "    msg = {_tag: \"MigrateStakeSSNPerCycle\"; _recipient: current_impl; _amount: zero; ssn: ssn; keys: keys; initiator: _sender};\n",
  str! "    msgs = one_msg msg;\n",
  str! "    send msgs\n",
  str! "end\n",
  str! "\n",
  str! "transition CopyBuffDepositDeleg(deleg: ByStr20,\n",
  str! "    keys: List (Pair ByStr20 (List (Pair Uint32 Uint128))))\n",
  str! "    current_impl <- implementation;\n",
  str! "    msg = {_tag: \"CopyBuffDepositDeleg\"; _recipient: current_impl; _amount: zero; deleg: deleg; keys: keys; initiator: _sender};\n",
  str! "    msgs = one_msg msg;\n",
  str! "    send msgs\n",
  str! "end\n",
  str! "\n",
  str! "transition CopyLastBufDepositCycleDelegList(last_buf_deposit_cycle_deleg_list: (List (Pair ByStr20 (List (Pair ByStr20 Uint32)))))\n",
  str! "    current_impl <- implementation;\n",
  str! "    msg = {_tag: \"CopyLastBufDepositCycleDelegList\"; _recipient: current_impl; _amount: zero; last_buf_deposit_cycle_deleg_list: last_buf_deposit_cycle_deleg_list; initiator: _sender};\n",
  str! "    msgs = one_msg msg;\n",
  str! "    send msgs\n",
  str! "end\n",
  str! "\n",
  str! "transition CopyLastWithdrawCycleDelegList(last_withdraw_cycle_deleg_list: (List (Pair ByStr20 (List (Pair ByStr20 Uint32)))))\n",
  str! "    current_impl <- implementation;\n",
  str! "    msg = {_tag: \"CopyLastWithdrawCycleDelegList\"; _recipient: current_impl; _amount: zero; last_withdraw_cycle_deleg_list: last_withdraw_cycle_deleg_list; initiator: _sender};\n",
  str! "    msgs = one_msg msg;\n",
  str! "    send msgs\n",
  str! "end\n",
  str! "\n",
  str! "transition CopyDelegStakePerCycleList(deleg_stake_per_cycle_list: (List (Pair ByStr20 (List (Pair ByStr20 (List (Pair Uint32 Uint128)))))))\n",
  str! "    current_impl <- implementation;\n",
  str! "    msg = {_tag: \"CopyDelegStakePerCycleList\"; _recipient: current_impl; _amount: zero; deleg_stake_per_cycle_list: deleg_stake_per_cycle_list; initiator: _sender};\n",
  str! "    msgs = one_msg msg;\n",
  str! "    send msgs\n",
  str! "end\n",
  str! "\n",
  str! "transition CopyDirectDepositDelegList(direct_deposit_deleg_list: (List (Pair ByStr20 (List (Pair ByStr20 (List (Pair Uint32 Uint128)))))))\n",
  str! "    current_impl <- implementation;\n",
  str! "    msg = {_tag: \"CopyDirectDepositDelegList\"; _recipient: current_impl; _amount: zero; direct_deposit_deleg_list: direct_deposit_deleg_list; initiator: _sender};\n",
  str! "    msgs = one_msg msg;\n",
  str! "    send msgs\n",
  str! "end\n",
  str! "\n",
  str! "transition CopyBuffDepositDelegList(buff_deposit_deleg_list: (List (Pair ByStr20 (List (Pair ByStr20 (List (Pair Uint32 Uint128)))))))\n",
  str! "    current_impl <- implementation;\n",
  str! "    msg = {_tag: \"CopyBuffDepositDelegList\"; _recipient: current_impl; _amount: zero; buff_deposit_deleg_list: buff_deposit_deleg_list; initiator: _sender};\n",
  str! "    msgs = one_msg msg;\n",
  str! "    send msgs\n",
  str! "end\n",
  str! "\n",
  str! "transition CopyDepositAmtDelegList(deposit_amt_deleg_list: (List (Pair ByStr20 (List (Pair ByStr20 Uint128)))))\n",
  str! "    current_impl <- implementation;\n",
  str! "    msg = {_tag: \"CopyDepositAmtDelegList\"; _recipient: current_impl; _amount: zero; deposit_amt_deleg_list: deposit_amt_deleg_list; initiator: _sender};\n",
  str! "    msgs = one_msg msg;\n",
  str! "    send msgs\n",
  str! "end\n",
  str! "\n",
  str! "transition CopyWithDrawalPendingList(withdrawal_pending_list: (List (Pair ByStr20 (List (Pair BNum Uint128)))))\n",
  str! "    current_impl <- implementation;\n",
  str! "    msg = {_tag: \"CopyWithDrawalPendingList\"; _recipient: current_impl; _amount: zero; withdrawal_pending_list: withdrawal_pending_list; initiator: _sender};\n",
  str! "    msgs = one_msg msg;\n",
  str! "    send msgs\n",
  str! "end\n",
  str! "\n",
  str! "transition CopyCommForSSNList(comm_for_ssn_list: (List (Pair ByStr20 (List (Pair Uint32 Uint128)))))\n",
  str! "    current_impl <- implementation;\n",
  str! "    msg = {_tag: \"CopyCommForSSNList\"; _recipient: current_impl; _amount: zero; comm_for_ssn_list: comm_for_ssn_list; initiator: _sender};\n",
  str! "    msgs = one_msg msg;\n",
  str! "    send msgs\n",
  str! "end\n",
  str! "\n",
  str! "transition CopyDelegSwapRequest(deleg_swap_request_list: (List (Pair ByStr20 ByStr20)))\n",
  str! "    current_impl <- implementation;\n",
  str! "    msg = {_tag: \"CopyDelegSwapRequest\"; _recipient: current_impl; _amount: zero; deleg_swap_request_list: deleg_swap_request_list; initiator: _sender};\n",
  str! "    msgs = one_msg msg;\n",
  str! "    send msgs\n",
  str! "end\n",
  str! "\n",
  str! "transition ChangeCycleRewardsDeleg(input_cycle_rewards_deleg: Uint128)\n",
  str! "    current_impl <- implementation;\n",
  str! "    msg = {_tag: \"ChangeCycleRewardsDeleg\"; _recipient: current_impl; _amount: zero; input_cycle_rewards_deleg: input_cycle_rewards_deleg; initiator: _sender};\n",
  str! "    msgs = one_msg msg;\n",
  str! "    send msgs\n",
  str! "end\n",
  str! "\n",
  str! "transition ChangeVerifierReward(input_verifier_reward: Uint128)\n",
  str! "    current_impl <- implementation;\n",
  str! "    msg = {_tag: \"ChangeVerifierReward\"; _recipient: current_impl; _amount: zero; input_verifier_reward: input_verifier_reward; initiator: _sender};\n",
  str! "    msgs = one_msg msg;\n",
  str! "    send msgs\n",
  str! "end\n",
  str! "\n",
  str! "transition ChangeAvailableWithdrawal(input_available_withdrawal: Uint128)\n",
  str! "    current_impl <- implementation;\n",
  str! "    msg = {_tag: \"ChangeAvailableWithdrawal\"; _recipient: current_impl; _amount: zero; input_available_withdrawal: input_available_withdrawal; initiator: _sender};\n",
  str! "    msgs = one_msg msg;\n",
  str! "    send msgs\n",
  str! "end\n",
  str! "\n",
  str! "transition ChangeCurrentDeleg(input_current_deleg: ByStr20)\n",
  str! "    current_impl <- implementation;\n",
  str! "    msg = {_tag: \"ChangeCurrentDeleg\"; _recipient: current_impl; _amount: zero; input_current_deleg: input_current_deleg; initiator: _sender};\n",
  str! "    msgs = one_msg msg;\n",
  str! "    send msgs\n",
  str! "end\n",
  str! "\n",
  str! "transition ChangeCurrentSSN(input_current_ssn: ByStr20)\n",
  str! "    current_impl <- implementation;\n",
  str! "    msg = {_tag: \"ChangeCurrentSSN\"; _recipient: current_impl; _amount: zero; input_current_ssn: input_current_ssn; initiator: _sender};\n",
  str! "    msgs = one_msg msg;\n",
  str! "    send msgs\n",
  str! "end\n",
  str! "\n",
  str! "transition ChangeNewDeleg(input_new_deleg: ByStr20)\n",
  str! "    current_impl <- implementation;\n",
  str! "    msg = {_tag: \"ChangeNewDeleg\"; _recipient: current_impl; _amount: zero; input_new_deleg: input_new_deleg; initiator: _sender};\n",
  str! "    msgs = one_msg msg;\n",
  str! "    send msgs\n",
  str! "end\n",
  str! "\n",
  str! "transition ChangeVerifier(input_verifier: ByStr20)\n",
  str! "    current_impl <- implementation;\n",
  str! "    msg = {_tag: \"ChangeVerifier\"; _recipient: current_impl; _amount: zero; input_verifier: input_verifier; initiator: _sender};\n",
  str! "    msgs = one_msg msg;\n",
  str! "    send msgs\n",
  str! "end\n",
  str! "\n",
  str! "transition ChangeVerifierReceivingAddr(input_verifier_receiving_addr: ByStr20)\n",
  str! "    current_impl <- implementation;\n",
  str! "    msg = {_tag: \"ChangeVerifierReceivingAddr\"; _recipient: current_impl; _amount: zero; input_verifier_receiving_addr: input_verifier_receiving_addr; initiator: _sender};\n",
  str! "    msgs = one_msg msg;\n",
  str! "    send msgs\n",
  str! "end\n",
  str! "\n",
  str! "transition ChangeMinStake(input_minstake: Uint128)\n",
  str! "    current_impl <- implementation;\n",
  str! "    msg = {_tag: \"ChangeMinStake\"; _recipient: current_impl; _amount: zero; input_minstake: input_minstake; initiator: _sender};\n",
  str! "    msgs = one_msg msg;\n",
  str! "    send msgs\n",
  str! "end\n",
  str! "\n",
  str! "transition ChangeMinDelegStake(input_mindelegstake: Uint128)\n",
  str! "    current_impl <- implementation;\n",
  str! "    msg = {_tag: \"ChangeMinDelegStake\"; _recipient: current_impl; _amount: zero; input_mindelegstake: input_mindelegstake; initiator: _sender};\n",
  str! "    msgs = one_msg msg;\n",
  str! "    send msgs\n",
  str! "end\n",
  str! "\n",
  str! "transition ChangeLastRewardCycle(input_lastrewardcycle: Uint32)\n",
  str! "    current_impl <- implementation;\n",
  str! "    msg = {_tag: \"ChangeLastRewardCycle\"; _recipient: current_impl; _amount: zero; input_lastrewardcycle: input_lastrewardcycle; initiator: _sender};\n",
  str! "    msgs = one_msg msg;\n",
  str! "    send msgs\n",
  str! "end\n",
  str! "\n",
  str! "transition ChangeMaxCommChangeRate(input_maxcommchangerate: Uint128)\n",
  str! "    current_impl <- implementation;\n",
  str! "    msg = {_tag: \"ChangeMaxCommChangeRate\"; _recipient: current_impl; _amount: zero; input_maxcommchangerate: input_maxcommchangerate; initiator: _sender};\n",
  str! "    msgs = one_msg msg;\n",
  str! "    send msgs\n",
  str! "end\n",
  str! "\n",
  str! "transition ChangeMaxCommRate(input_maxcommrate: Uint128)\n",
  str! "    current_impl <- implementation;\n",
  str! "    msg = {_tag: \"ChangeMaxCommRate\"; _recipient: current_impl; _amount: zero; input_maxcommrate: input_maxcommrate; initiator: _sender};\n",
  str! "    msgs = one_msg msg;\n",
  str! "    send msgs\n",
  str! "end\n",
  str! "\n",
  str! "transition ChangeTotalStakeAmount(input_totalstakeamount: Uint128)\n",
  str! "    current_impl <- implementation;\n",
  str! "    msg = {_tag: \"ChangeTotalStakeAmount\"; _recipient: current_impl; _amount: zero; input_totalstakeamount: input_totalstakeamount; initiator: _sender};\n",
  str! "    msgs = one_msg msg;\n",
  str! "    send msgs\n",
  str! "end\n"]

/-- full_contract_tests.rs: the contract it must give -/
example : fromStr demoEnv docstaking_proxy_v2 = .ok ⟨(str! "SSNListProxy_V2"),
    [⟨(str! "init_implementation"), .byStr20⟩, ⟨(str! "init_admin"), .byStr20⟩],
    [⟨(str! "implementation"), .byStr20⟩, ⟨(str! "admin"), .byStr20⟩, ⟨(str! "stagingadmin"), (.option .byStr20)⟩],
    [⟨(str! "UpgradeTo"), [⟨(str! "newImplementation"), .byStr20⟩]⟩, ⟨(str! "ChangeProxyAdmin"), [⟨(str! "newAdmin"), .byStr20⟩]⟩, ⟨(str! "ClaimProxyAdmin"), []⟩, ⟨(str! "OptInSSNToConsensusPoolAdminOverride"), [⟨(str! "ssnaddr"), .byStr20⟩]⟩, ⟨(str! "OptOutSSNFromConsensusPoolAdminOverride"), [⟨(str! "ssnaddr"), .byStr20⟩]⟩, ⟨(str! "RemoveFromConsensusPoolAdminOverride"), [⟨(str! "ssnaddr"), .byStr20⟩]⟩, ⟨(str! "ChangeMinCommissionRate"), [⟨(str! "mincommrate_value"), .uint128⟩]⟩, ⟨(str! "AddSSNNonStaking"), [⟨(str! "ssnaddr"), .byStr20⟩, ⟨(str! "name"), .string⟩, ⟨(str! "urlraw"), .string⟩, ⟨(str! "urlapi"), .string⟩, ⟨(str! "comm"), .uint128⟩]⟩, ⟨(str! "AddSSNToConsensusPool"), []⟩, ⟨(str! "RemoveSSNFromConsensusPool"), []⟩, ⟨(str! "WithdrawStakeRewardsForCycles"), [⟨(str! "ssnaddr"), .byStr20⟩, ⟨(str! "cycles"), .uint32⟩]⟩, ⟨(str! "CopySSNDelegAmt"), [⟨(str! "ssn"), .byStr20⟩, ⟨(str! "keys"), (.list (.pair .byStr20 .uint128))⟩]⟩, ⟨(str! "MigrateStakeSSNPerCycle"), [⟨(str! "ssn"), .byStr20⟩, ⟨(str! "keys"), (.list (.pair .uint32 (.pair .uint128 .uint128)))⟩]⟩, ⟨(str! "CopyBuffDepositDeleg"), [⟨(str! "deleg"), .byStr20⟩, ⟨(str! "keys"), (.list (.pair .byStr20 (.list (.pair .uint32 .uint128))))⟩]⟩, ⟨(str! "CopyLastBufDepositCycleDelegList"), [⟨(str! "last_buf_deposit_cycle_deleg_list"), (.list (.pair .byStr20 (.list (.pair .byStr20 .uint32))))⟩]⟩, ⟨(str! "CopyLastWithdrawCycleDelegList"), [⟨(str! "last_withdraw_cycle_deleg_list"), (.list (.pair .byStr20 (.list (.pair .byStr20 .uint32))))⟩]⟩, ⟨(str! "CopyDelegStakePerCycleList"), [⟨(str! "deleg_stake_per_cycle_list"), (.list (.pair .byStr20 (.list (.pair .byStr20 (.list (.pair .uint32 .uint128))))))⟩]⟩, ⟨(str! "CopyDirectDepositDelegList"), [⟨(str! "direct_deposit_deleg_list"), (.list (.pair .byStr20 (.list (.pair .byStr20 (.list (.pair .uint32 .uint128))))))⟩]⟩, ⟨(str! "CopyBuffDepositDelegList"), [⟨(str! "buff_deposit_deleg_list"), (.list (.pair .byStr20 (.list (.pair .byStr20 (.list (.pair .uint32 .uint128))))))⟩]⟩, ⟨(str! "CopyDepositAmtDelegList"), [⟨(str! "deposit_amt_deleg_list"), (.list (.pair .byStr20 (.list (.pair .byStr20 .uint128))))⟩]⟩, ⟨(str! "CopyWithDrawalPendingList"), [⟨(str! "withdrawal_pending_list"), (.list (.pair .byStr20 (.list (.pair .bNum .uint128))))⟩]⟩, ⟨(str! "CopyCommForSSNList"), [⟨(str! "comm_for_ssn_list"), (.list (.pair .byStr20 (.list (.pair .uint32 .uint128))))⟩]⟩, ⟨(str! "CopyDelegSwapRequest"), [⟨(str! "deleg_swap_request_list"), (.list (.pair .byStr20 .byStr20))⟩]⟩, ⟨(str! "ChangeCycleRewardsDeleg"), [⟨(str! "input_cycle_rewards_deleg"), .uint128⟩]⟩, ⟨(str! "ChangeVerifierReward"), [⟨(str! "input_verifier_reward"), .uint128⟩]⟩, ⟨(str! "ChangeAvailableWithdrawal"), [⟨(str! "input_available_withdrawal"), .uint128⟩]⟩, ⟨(str! "ChangeCurrentDeleg"), [⟨(str! "input_current_deleg"), .byStr20⟩]⟩, ⟨(str! "ChangeCurrentSSN"), [⟨(str! "input_current_ssn"), .byStr20⟩]⟩, ⟨(str! "ChangeNewDeleg"), [⟨(str! "input_new_deleg"), .byStr20⟩]⟩, ⟨(str! "ChangeVerifier"), [⟨(str! "input_verifier"), .byStr20⟩]⟩, ⟨(str! "ChangeVerifierReceivingAddr"), [⟨(str! "input_verifier_receiving_addr"), .byStr20⟩]⟩, ⟨(str! "ChangeMinStake"), [⟨(str! "input_minstake"), .uint128⟩]⟩, ⟨(str! "ChangeMinDelegStake"), [⟨(str! "input_mindelegstake"), .uint128⟩]⟩, ⟨(str! "ChangeLastRewardCycle"), [⟨(str! "input_lastrewardcycle"), .uint32⟩]⟩, ⟨(str! "ChangeMaxCommChangeRate"), [⟨(str! "input_maxcommchangerate"), .uint128⟩]⟩, ⟨(str! "ChangeMaxCommRate"), [⟨(str! "input_maxcommrate"), .uint128⟩]⟩, ⟨(str! "ChangeTotalStakeAmount"), [⟨(str! "input_totalstakeamount"), .uint128⟩]⟩]⟩ := by
  decide +kernel

/-- tests/contracts/ZRC2.scilla -/
def docZRC2 : Str := List.flatten [
  str! "scilla_version 0\n",
  str! "\n",
  str! "(***************************************************)\n",
  str! "(*               Associated library                *)\n",
  str! "(***************************************************)\n",
  str! "import IntUtils\n",
  str! "library FungibleToken\n",
  str! "\n",
  str! "let one_msg = \n",
  str! "  fun (msg : Message) => \n",
  str! "  let nil_msg = Nil {Message} in\n",
  str! "  Cons {Message} msg nil_msg\n",
  str! "\n",
  str! "let two_msgs =\n",
  str! "fun (msg1 : Message) =>\n",
  str! "fun (msg2 : Message) =>\n",
  str! "  let msgs_tmp = one_msg msg2 in\n",
  str! "  Cons {Message} msg1 msgs_tmp\n",
  str! "\n",
  str! "(* Error events *)\n",
  str! "type Error =\n",
  str! "| CodeIsSender\n",
  str! "| CodeInsufficientFunds\n",
  str! "| CodeInsufficientAllowance\n",
  str! "| CodeNotOwner\n",
  str! "\n",
  str! "let make_error =\n",
  str! "  fun (result : Error) =>\n",
  str! "    let result_code = \n",
  str! "      match result with\n",
  str! "      | CodeIsSender              => Int32 -1\n",
  str! "      | CodeInsufficientFunds     => Int32 -2\n",
  str! "      | CodeInsufficientAllowance => Int32 -3\n",
  str! "      | CodeNotOwner              => Int32 -4\n",
  str! "      end\n",
  str! "    in\n",
  str! "    { _exception : \"Error\"; code : result_code }\n",
  str! "  \n",
  str! "let zero = Uint128 0\n",
  str! "\n",
  str! "(* Dummy user-defined ADT *)\n",
  str! "type Unit =\n",
  str! "| Unit\n",
  str! "\n",
  str! "let get_val =\n",
  str! "  fun (some_val: Option Uint128) =>\n",
  str! "  match some_val with\n",
  str! "  | Some val => val\n",
  str! "  | None => zero\n",
  str! "  end\n",
  str! "\n",
  str! "(***************************************************)\n",
  str! "(*             The contract definition             *)\n",
  str! "(***************************************************)\n",
  str! "\n",
  str! "contract FungibleToken\n",
  str! "(\n",
  str! "  contract_owner: ByStr20,\n",
  str! "  name : String,\n",
  str! "  symbol: String,\n",
  str! "  decimals: Uint32,\n",
  str! "  init_supply : Uint128\n",
  str! ")\n",
  str! "\n",
  str! "(* Mutable fields *)\n",
  str! "\n",
  str! "field total_supply : Uint128 = init_supply\n",
  str! "\n",
  str! "field balances: Map ByStr20 Uint128 \n",
  str! "  = let emp_map = Emp ByStr20 Uint128 in\n",
  str! "    builtin put emp_map contract_owner init_supply\n",
  str! "\n",
  str! "field allowances: Map ByStr20 (Map ByStr20 Uint128) \n",
  str! "  = Emp ByStr20 (Map ByStr20 Uint128)\n",
  str! "\n",
  str! "(**************************************)\n",
  str! "(*             Procedures             *)\n",
  str! "(**************************************)\n",
  str! "\n",
  str! "procedure ThrowError(err : Error)\n",
  str! "  e = make_error err;\n",
  str! "  throw e\n",
  str! "end\n",
  str! "\n",
  str! "procedure IsOwner(address: ByStr20)\n",
  str! "  is_owner = builtin eq contract_owner address;\n",
  str! "  match is_owner with\n",
  str! "  | True =>\n",
  str! "  | False =>\n",
  str! "    err = CodeNotOwner;\n",
  str! "    ThrowError err\n",
  str! "  end\n",
  str! "end\n",
  str! "\n",
  str! "procedure IsNotSender(address: ByStr20)\n",
  str! "  is_sender = builtin eq _sender address;\n",
  str! "  match is_sender with\n",
  str! "  | True =>\n",
  str! "    err = CodeIsSender;\n",
  str! "    ThrowError err\n",
  str! "  | False =>\n",
  str! "  end\n",
  str! "end\n",
  str! "\n",
  str! "procedure AuthorizedMint(recipient: ByStr20, amount: Uint128) \n",
  str! "  o_recipient_bal <- balances[recipient];\n",
  str! "  bal = get_val o_recipient_bal;\n",
  str! "  new_balance = builtin add amount bal;\n",
  str! "  balances[recipient] := new_balance;\n",
  str! "  current_total_supply <- total_supply;\n",
  str! "  new_total_supply = builtin add current_total_supply amount;\n",
  str! "  total_supply := new_total_supply;\n",
  str! "  e = {_eventname: \"Minted\"; minter: _sender; recipient: recipient; amount: amount};\n",
  str! "  event e\n",
  str! "end\n",
  str! "\n",
  str! "procedure AuthorizedBurnIfSufficientBalance(from: ByStr20, amount: Uint128)\n",
  str! "  o_get_bal <- balances[from];\n",
  str! "  bal = get_val o_get_bal;\n",
  str! "  can_burn = uint128_le amount bal;\n",
  str! "  match can_burn with\n",
  str! "  | True =>\n",
  str! "    (* Subtract amount from from *)\n",
  str! "    new_balance = builtin sub bal amount;\n",
  str! "    balances[from] := new_balance;\n",
  str! "    current_total_supply <- total_supply;\n",
  str! "    new_total_supply = builtin sub current_total_supply amount;\n",
  str! "    total_supply := new_total_supply;\n",
  str! "    e = {_eventname: \"Burnt\"; burner: _sender; burn_account: from; amount: amount};\n",
  str! "    event e  \n",
  str! "  | False =>\n",
  str! "    err = CodeInsufficientFunds;\n",
  str! "    ThrowError err\n",
  str! "  end\n",
  str! "end\n",
  str! "\n",
  str! "procedure AuthorizedMoveIfSufficientBalance(from: ByStr20, to: ByStr20, amount: Uint128)\n",
  str! "  o_from_bal <- balances[from];\n",
  str! "  bal = get_val o_from_bal;\n",
  str! "  can_do = uint128_le amount bal;\n",
  str! "  match can_do with\n",
  str! "  | True =>\n",
  str! "    (* Subtract amount from from and add it to to address *)\n",
  str! "    new_from_bal = builtin sub bal amount;\n",
  str! "    balances[from] := new_from_bal;\n",
  str! "    (* Adds amount to to address *)\n",
  str! "    get_to_bal <- balances[to];\n",
  str! "    new_to_bal = match get_to_bal with\n",
  str! "    | Some bal => builtin add bal amount\n",
  str! "    | None => amount\n",
  str! "    end;\n",
  str! "    balances[to] := new_to_bal\n",
  str! "  | False =>\n",
  str! "    (* Balance not sufficient *)\n",
  str! "    err = CodeInsufficientFunds;\n",
  str! "    ThrowError err\n",
  str! "  end\n",
  str! "end\n",
  str! "\n",
  str! "(***************************************)\n",
  str! "(*             Transitions             *)\n",
  str! "(***************************************)\n",
  str! "\n",
  str! "(* @dev: Mint new tokens. Only contract_owner can mint.                      *)\n",
  str! "(* @param recipient: Address of the recipient whose balance is to increase.  *)\n",
  str! "(* @param amount:    Number of tokens to be minted.                          *)\n",
  str! "transition Mint(recipient: ByStr20, amount: Uint128)\n",
  str! "  IsOwner _sender;\n",
  str! "  AuthorizedMint recipient amount;\n",
  str! "  (* Prevent sending to a contract address that does not support transfers of token *)\n",
  str! "  msg_to_recipient = {_tag : \"RecipientAcceptMint\"; _recipient : recipient; _amount : zero; \n",
  str! "                      minter : _sender; recipient : recipient; amount : amount};\n",
  str! "  msg_to_sender = {_tag : \"MintSuccessCallBack\"; _recipient : _sender; _amount : zero; \n",
  str! "                      minter : _sender; recipient : recipient; amount : amount};\n",
  str! "  msgs = two_msgs msg_to_recipient msg_to_sender;\n",
  str! "  send msgs\n",
  str! "end\n",
  str! "\n",
  str! "(* @dev: Burn existing tokens. Only contract_owner can burn.                      *)\n",
  str! "(* @param burn_account: Address of the token_owner whose balance is to decrease.  *)\n",
  str! "(* @param amount:       Number of tokens to be burned.                            *)\n",
  str! "transition Burn(burn_account: ByStr20, amount: Uint128)\n",
  str! "  IsOwner _sender;\n",
  str! "  AuthorizedBurnIfSufficientBalance burn_account amount;\n",
  str! "  msg_to_sender = {_tag : \"BurnSuccessCallBack\"; _recipient : _sender; _amount : zero; \n",
  str! "                    burner : _sender; burn_account : burn_account; amount : amount};\n",
  str! "  msgs = one_msg msg_to_sender;\n",
  str! "  send msgs\n",
  str! "end\n",
  str! "\n",
  str! "(* @dev: Increase the allowance of an approved_spender over the caller tokens. Only token_owner allowed to invoke.   *)\n",
  str! "(* param spender:      Address of the designated approved_spender.                                                   *)\n",
  str! "(* param amount:       Number of tokens to be increased as allowance for the approved_spender.                       *)\n",
  str! "transition IncreaseAllowance(spender: ByStr20, amount: Uint128)\n",
  str! "  IsNotSender spender;\n",
  str! "  some_current_allowance <- allowances[_sender][spender];\n",
  str! "  current_allowance = get_val some_current_allowance;\n",
  str! "  new_allowance = builtin add current_allowance amount;\n",
  str! "  allowances[_sender][spender] := new_allowance;\n",
  str! "  e = {_eventname : \"IncreasedAllowance\"; token_owner : _sender; spender: spender; new_allowance : new_allowance};\n",
  str! "  event e\n",
  str! "end\n",
  str! "\n",
  str! "(* @dev: Decrease the allowance of an approved_spender over the caller tokens. Only token_owner allowed to invoke. *)\n",
  str! "(* param spender:      Address of the designated approved_spender.                                                 *)\n",
  str! "(* param amount:       Number of tokens to be decreased as allowance for the approved_spender.                     *)\n",
  str! "transition DecreaseAllowance(spender: ByStr20, amount: Uint128)\n",
  str! "  IsNotSender spender;\n",
  str! "  some_current_allowance <- allowances[_sender][spender];\n",
  str! "  current_allowance = get_val some_current_allowance;\n",
  str! "  new_allowance =\n",
  str! "    let amount_le_allowance = uint128_le amount current_allowance in\n",
  str! "      match amount_le_allowance with\n",
  str! "      | True => builtin sub current_allowance amount\n",
  str! "      | False => zero\n",
  str! "      end;\n",
  str! "  allowances[_sender][spender] := new_allowance;\n",
  str! "  e = {_eventname : \"DecreasedAllowance\"; token_owner : _sender; spender: spender; new_allowance : new_allowance};\n",
  str! "  event e\n",
  str! "end\n",
  str! "\n",
  str! "(* @dev: Moves an amount tokens from _sender to the recipient. Used by token_owner. *)\n",
  str! "(* @dev: Balance of recipient will increase. Balance of _sender will decrease.      *)\n",
  str! "(* @param to:  Address of the recipient whose balance is increased.                 *)\n",
  str! "(* @param amount:     Amount of tokens to be sent.                                  *)\n",
  str! "transition Transfer(to: ByStr20, amount: Uint128)\n",
  str! "  AuthorizedMoveIfSufficientBalance _sender to amount;\n",
  str! "  e = {_eventname : \"TransferSuccess\"; sender : _sender; recipient : to; amount : amount};\n",
  str! "  event e;\n",
  str! "  (* Prevent sending to a contract address that does not support transfers of token *)\n",
  str! "  msg_to_recipient = {_tag : \"RecipientAcceptTransfer\"; _recipient : to; _amount : zero; \n",
  str! "                      sender : _sender; recipient : to; amount : amount};\n",
  str! "  msg_to_sender = {_tag : \"TransferSuccessCallBack\"; _recipient : _sender; _amount : zero; \n",
  str! "                  sender : _sender; recipient : to; amount : amount};\n",
  str! "  msgs = two_msgs msg_to_recipient msg_to_sender;\n",
  str! "  send msgs\n",
  str! "end\n",
  str! "\n",
  str! "(* @dev: Move a given amount of tokens from one address to another using the allowance mechanism. The caller must be an approved_spender. *)\n",
  str! "(* @dev: Balance of recipient will increase. Balance of token_owner will decrease.                                                        *)\n",
  str! "(* @param from:    Address of the token_owner whose balance is decreased.                                                                 *)\n",
  str! "(* @param to:      Address of the recipient whose balance is increased.                                                                   *)\n",
  str! "(* @param amount:  Amount of tokens to be transferred.                                                                                    *)\n",
  str! "transition TransferFrom(from: ByStr20, to: ByStr20, amount: Uint128)\n",
  str! "  o_spender_allowed <- allowances[from][_sender];\n",
  str! "  allowed = get_val o_spender_allowed;\n",
  str! "  can_do = uint128_le amount allowed;\n",
  str! "  match can_do with\n",
  str! "  | True =>\n",
  str! "    AuthorizedMoveIfSufficientBalance from to amount;\n",
  str! "    e = {_eventname : \"TransferFromSuccess\"; initiator : _sender; sender : from; recipient : to; amount : amount};\n",
  str! "    event e;\n",
  str! "    new_allowed = builtin sub allowed amount;\n",
  str! "    allowances[from][_sender] := new_allowed;\n",
  str! "    (* Prevent sending to a contract address that does not support transfers of token *)\n",
  str! "    msg_to_recipient = {_tag: \"RecipientAcceptTransferFrom\"; _recipient : to; _amount: zero; \n",
  str! "                        initiator: _sender; sender : from; recipient: to; amount: amount};\n",
  str! "    msg_to_sender = {_tag: \"TransferFromSuccessCallBack\"; _recipient: _sender; _amount: zero; \n",
  str! "                    initiator: _sender; sender: from; recipient: to; amount: amount};\n",
  str! "    msgs = two_msgs msg_to_recipient msg_to_sender;\n",
  str! "    send msgs\n",
  str! "  | False =>\n",
  str! "    err = CodeInsufficientAllowance;\n",
  str! "    ThrowError err\n",
  str! "  end\n",
  str! "end\n"]

/-- full_contract_tests.rs, test_parse: it must be accepted -/
example : (fromStr demoEnv docZRC2).isOk = true := by
  decide +kernel

/-- tests/contracts/ZRC2Interop.scilla -/
def docZRC2Interop : Str := List.flatten [
  str! "scilla_version 0\n",
  str! "\n",
  str! "(***************************************************)\n",
  str! "(*               Associated library                *)\n",
  str! "(***************************************************)\n",
  str! "import IntUtils\n",
  str! "library ZRC2Interop\n",
  str! "\n",
  str! "let one_msg = \n",
  str! "  fun (msg : Message) => \n",
  str! "  let nil_msg = Nil {Message} in\n",
  str! "  Cons {Message} msg nil_msg\n",
  str! "\n",
  str! "let two_msgs =\n",
  str! "fun (msg1 : Message) =>\n",
  str! "fun (msg2 : Message) =>\n",
  str! "  let msgs_tmp = one_msg msg2 in\n",
  str! "  Cons {Message} msg1 msgs_tmp\n",
  str! "\n",
  str! "(* Error events *)\n",
  str! "type Error =\n",
  str! "| CodeIsSender\n",
  str! "| CodeInsufficientFunds\n",
  str! "| CodeInsufficientAllowance\n",
  str! "| CodeNotOwner\n",
  str! "\n",
  str! "let make_error =\n",
  str! "  fun (result : Error) =>\n",
  str! "    let result_code = \n",
  str! "      match result with\n",
  str! "      | CodeIsSender              => Int32 -1\n",
  str! "      | CodeInsufficientFunds     => Int32 -2\n",
  str! "      | CodeInsufficientAllowance => Int32 -3\n",
  str! "      | CodeNotOwner              => Int32 -4\n",
  str! "      end\n",
  str! "    in\n",
  str! "    { _exception : \"Error\"; code : result_code }\n",
  str! "  \n",
  str! "let zero = Uint128 0\n",
  str! "\n",
  str! "(* Dummy user-defined ADT *)\n",
  str! "type Unit =\n",
  str! "| Unit\n",
  str! "\n",
  str! "let get_val =\n",
  str! "  fun (some_val: Option Uint128) =>\n",
  str! "  match some_val with\n",
  str! "  | Some val => val\n",
  str! "  | None => zero\n",
  str! "  end\n",
  str! "\n",
  str! "(***************************************************)\n",
  str! "(*             The contract definition             *)\n",
  str! "(***************************************************)\n",
  str! "\n",
  str! "contract ZRC2Interop\n",
  str! "(\n",
  str! "  contract_owner: ByStr20,\n",
  str! "  name : String,\n",
  str! "  symbol: String,\n",
  str! "  decimals: Uint32,\n",
  str! "  init_supply : Uint128\n",
  str! ")\n",
  str! "\n",
  str! "(* Mutable fields *)\n",
  str! "\n",
  str! "field total_supply : Uint128 = init_supply\n",
  str! "\n",
  str! "field balances: Map ByStr20 Uint128 \n",
  str! "  = let emp_map = Emp ByStr20 Uint128 in\n",
  str! "    builtin put emp_map contract_owner init_supply\n",
  str! "\n",
  str! "field allowances: Map ByStr20 (Map ByStr20 Uint128) \n",
  str! "  = Emp ByStr20 (Map ByStr20 Uint128)\n",
  str! "\n",
  str! "(**************************************)\n",
  str! "(*             Procedures             *)\n",
  str! "(**************************************)\n",
  str! "\n",
  str! "procedure ThrowError(err : Error)\n",
  str! "  e = make_error err;\n",
  str! "  throw e\n",
  str! "end\n",
  str! "\n",
  str! "procedure IsOwner(address: ByStr20)\n",
  str! "  is_owner = builtin eq contract_owner address;\n",
  str! "  match is_owner with\n",
  str! "  | True =>\n",
  str! "  | False =>\n",
  str! "    err = CodeNotOwner;\n",
  str! "    ThrowError err\n",
  str! "  end\n",
  str! "end\n",
  str! "\n",
  str! "procedure IsNotSender(address: ByStr20)\n",
  str! "  is_sender = builtin eq _origin address;\n",
  str! "  match is_sender with\n",
  str! "  | True =>\n",
  str! "    err = CodeIsSender;\n",
  str! "    ThrowError err\n",
  str! "  | False =>\n",
  str! "  end\n",
  str! "end\n",
  str! "\n",
  str! "procedure AuthorizedMint(recipient: ByStr20, amount: Uint128) \n",
  str! "  o_recipient_bal <- balances[recipient];\n",
  str! "  bal = get_val o_recipient_bal;\n",
  str! "  new_balance = builtin add amount bal;\n",
  str! "  balances[recipient] := new_balance;\n",
  str! "  current_total_supply <- total_supply;\n",
  str! "  new_total_supply = builtin add current_total_supply amount;\n",
  str! "  total_supply := new_total_supply;\n",
  str! "  e = {_eventname: \"Minted\"; minter: _origin; recipient: recipient; amount: amount};\n",
  str! "  event e\n",
  str! "end\n",
  str! "\n",
  str! "procedure AuthorizedBurnIfSufficientBalance(from: ByStr20, amount: Uint128)\n",
  str! "  o_get_bal <- balances[from];\n",
  str! "  bal = get_val o_get_bal;\n",
  str! "  can_burn = uint128_le amount bal;\n",
  str! "  match can_burn with\n",
  str! "  | True =>\n",
  str! "    (* Subtract amount from from *)\n",
  str! "    new_balance = builtin sub bal amount;\n",
  str! "    balances[from] := new_balance;\n",
  str! "    current_total_supply <- total_supply;\n",
  str! "    new_total_supply = builtin sub current_total_supply amount;\n",
  str! "    total_supply := new_total_supply;\n",
  str! "    e = {_eventname: \"Burnt\"; burner: _origin; burn_account: from; amount: amount};\n",
  str! "    event e  \n",
  str! "  | False =>\n",
  str! "    err = CodeInsufficientFunds;\n",
  str! "    ThrowError err\n",
  str! "  end\n",
  str! "end\n",
  str! "\n",
  str! "procedure AuthorizedMoveIfSufficientBalance(from: ByStr20, to: ByStr20, amount: Uint128)\n",
  str! "  o_from_bal <- balances[from];\n",
  str! "  bal = get_val o_from_bal;\n",
  str! "  can_do = uint128_le amount bal;\n",
  str! "  match can_do with\n",
  str! "  | True =>\n",
  str! "    (* Subtract amount from from and add it to to address *)\n",
  str! "    new_from_bal = builtin sub bal amount;\n",
  str! "    balances[from] := new_from_bal;\n",
  str! "    (* Adds amount to to address *)\n",
  str! "    get_to_bal <- balances[to];\n",
  str! "    new_to_bal = match get_to_bal with\n",
  str! "    | Some bal => builtin add bal amount\n",
  str! "    | None => amount\n",
  str! "    end;\n",
  str! "    balances[to] := new_to_bal\n",
  str! "  | False =>\n",
  str! "    (* Balance not sufficient *)\n",
  str! "    err = CodeInsufficientFunds;\n",
  str! "    ThrowError err\n",
  str! "  end\n",
  str! "end\n",
  str! "\n",
  str! "(***************************************)\n",
  str! "(*             Transitions             *)\n",
  str! "(***************************************)\n",
  str! "\n",
  str! "(* @dev: Mint new tokens. Only contract_owner can mint.                      *)\n",
  str! "(* @param recipient: Address of the recipient whose balance is to increase.  *)\n",
  str! "(* @param amount:    Number of tokens to be minted.                          *)\n",
  str! "transition Mint(recipient: ByStr20, amount: Uint128)\n",
  str! "  IsOwner _origin;\n",
  str! "  AuthorizedMint recipient amount;\n",
  str! "  (* Prevent sending to a contract address that does not support transfers of token *)\n",
  str! "  msg_to_recipient = {_tag : \"RecipientAcceptMint\"; _recipient : recipient; _amount : zero; \n",
  str! "                      minter : _origin; recipient : recipient; amount : amount};\n",
  str! "  msg_to_sender = {_tag : \"MintSuccessCallBack\"; _recipient : _origin; _amount : zero; \n",
  str! "                      minter : _origin; recipient : recipient; amount : amount};\n",
  str! "  msgs = two_msgs msg_to_recipient msg_to_sender;\n",
  str! "  send msgs\n",
  str! "end\n",
  str! "\n",
  str! "(* @dev: Burn existing tokens. Only contract_owner can burn.                      *)\n",
  str! "(* @param burn_account: Address of the token_owner whose balance is to decrease.  *)\n",
  str! "(* @param amount:       Number of tokens to be burned.                            *)\n",
  str! "transition Burn(burn_account: ByStr20, amount: Uint128)\n",
  str! "  IsOwner _origin;\n",
  str! "  AuthorizedBurnIfSufficientBalance burn_account amount;\n",
  str! "  msg_to_sender = {_tag : \"BurnSuccessCallBack\"; _recipient : _origin; _amount : zero; \n",
  str! "                    burner : _origin; burn_account : burn_account; amount : amount};\n",
  str! "  msgs = one_msg msg_to_sender;\n",
  str! "  send msgs\n",
  str! "end\n",
  str! "\n",
  str! "(* @dev: Increase the allowance of an approved_spender over the caller tokens. Only token_owner allowed to invoke.   *)\n",
  str! "(* param spender:      Address of the designated approved_spender.                                                   *)\n",
  str! "(* param amount:       Number of tokens to be increased as allowance for the approved_spender.                       *)\n",
  str! "transition IncreaseAllowance(spender: ByStr20, amount: Uint128)\n",
  str! "  IsNotSender spender;\n",
  str! "  some_current_allowance <- allowances[_origin][spender];\n",
  str! "  current_allowance = get_val some_current_allowance;\n",
  str! "  new_allowance = builtin add current_allowance amount;\n",
  str! "  allowances[_origin][spender] := new_allowance;\n",
  str! "  e = {_eventname : \"IncreasedAllowance\"; token_owner : _origin; spender: spender; new_allowance : new_allowance};\n",
  str! "  event e\n",
  str! "end\n",
  str! "\n",
  str! "(* @dev: Decrease the allowance of an approved_spender over the caller tokens. Only token_owner allowed to invoke. *)\n",
  str! "(* param spender:      Address of the designated approved_spender.                                                 *)\n",
  str! "(* param amount:       Number of tokens to be decreased as allowance for the approved_spender.                     *)\n",
  str! "transition DecreaseAllowance(spender: ByStr20, amount: Uint128)\n",
  str! "  IsNotSender spender;\n",
  str! "  some_current_allowance <- allowances[_origin][spender];\n",
  str! "  current_allowance = get_val some_current_allowance;\n",
  str! "  new_allowance =\n",
  str! "    let amount_le_allowance = uint128_le amount current_allowance in\n",
  str! "      match amount_le_allowance with\n",
  str! "      | True => builtin sub current_allowance amount\n",
  str! "      | False => zero\n",
  str! "      end;\n",
  str! "  allowances[_origin][spender] := new_allowance;\n",
  str! "  e = {_eventname : \"DecreasedAllowance\"; token_owner : _origin; spender: spender; new_allowance : new_allowance};\n",
  str! "  event e\n",
  str! "end\n",
  str! "\n",
  str! "(* @dev: Moves an amount tokens from _origin to the recipient. Used by token_owner. *)\n",
  str! "(* @dev: Balance of recipient will increase. Balance of _origin will decrease.      *)\n",
  str! "(* @param to:  Address of the recipient whose balance is increased.                 *)\n",
  str! "(* @param amount:     Amount of tokens to be sent.                                  *)\n",
  str! "transition Transfer(to: ByStr20, amount: Uint128)\n",
  str! "  AuthorizedMoveIfSufficientBalance _origin to amount;\n",
  str! "  e = {_eventname : \"TransferSuccess\"; sender : _origin; recipient : to; amount : amount};\n",
  str! "  event e;\n",
  str! "  (* Prevent sending to a contract address that does not support transfers of token *)\n",
  str! "  msg_to_recipient = {_tag : \"RecipientAcceptTransfer\"; _recipient : to; _amount : zero; \n",
  str! "                      sender : _origin; recipient : to; amount : amount};\n",
  str! "  msg_to_sender = {_tag : \"TransferSuccessCallBack\"; _recipient : _origin; _amount : zero; \n",
  str! "                  sender : _origin; recipient : to; amount : amount};\n",
  str! "  msgs = two_msgs msg_to_recipient msg_to_sender;\n",
  str! "  send msgs\n",
  str! "end\n",
  str! "\n",
  str! "(* @dev: Move a given amount of tokens from one address to another using the allowance mechanism. The caller must be an approved_spender. *)\n",
  str! "(* @dev: Balance of recipient will increase. Balance of token_owner will decrease.                                                        *)\n",
  str! "(* @param from:    Address of the token_owner whose balance is decreased.                                                                 *)\n",
  str! "(* @param to:      Address of the recipient whose balance is increased.                                                                   *)\n",
  str! "(* @param amount:  Amount of tokens to be transferred.                                                                                    *)\n",
  str! "transition TransferFrom(from: ByStr20, to: ByStr20, amount: Uint128)\n",
  str! "  o_spender_allowed <- allowances[from][_origin];\n",
  str! "  allowed = get_val o_spender_allowed;\n",
  str! "  can_do = uint128_le amount allowed;\n",
  str! "  match can_do with\n",
  str! "  | True =>\n",
  str! "    AuthorizedMoveIfSufficientBalance from to amount;\n",
  str! "    e = {_eventname : \"TransferFromSuccess\"; initiator : _origin; sender : from; recipient : to; amount : amount};\n",
  str! "    event e;\n",
  str! "    new_allowed = builtin sub allowed amount;\n",
  str! "    allowances[from][_origin] := new_allowed;\n",
  str! "    (* Prevent sending to a contract address that does not support transfers of token *)\n",
  str! "    msg_to_recipient = {_tag: \"RecipientAcceptTransferFrom\"; _recipient : to; _amount: zero; \n",
  str! "                        initiator: _origin; sender : from; recipient: to; amount: amount};\n",
  str! "    msg_to_sender = {_tag: \"TransferFromSuccessCallBack\"; _recipient: _origin; _amount: zero; \n",
  str! "                    initiator: _origin; sender: from; recipient: to; amount: amount};\n",
  str! "    msgs = two_msgs msg_to_recipient msg_to_sender;\n",
  str! "    send msgs\n",
  str! "  | False =>\n",
  str! "    err = CodeInsufficientAllowance;\n",
  str! "    ThrowError err\n",
  str! "  end\n",
  str! "end\n"]

/-- full_contract_tests.rs, test_parse: it must be accepted -/
example : (fromStr demoEnv docZRC2Interop).isOk = true := by
  decide +kernel

end Verif
