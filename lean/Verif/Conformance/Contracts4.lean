import Verif.Conformance.Basic
/-
Generated by tools/conformance.py from /repo/tests/full_contract_tests.rs and /repo/tests/contracts: the contracts of
the project's own tests (but the three largest), evaluated on the model.  (Validation of the model, not proofs of
properties.)
-/
set_option maxRecDepth 100000
namespace Verif

/-- tests/contracts/StakingContract.scilla -/
def docStakingContract : Str := List.flatten [
  str! "scilla_version 0\n",
  str! "\n",
  str! "import\n",
  str! "  BoolUtils\n",
  str! "  IntUtils\n",
  str! "  ListUtils\n",
  str! "  PairUtils\n",
  str! "\n",
  str! "library StakingContract\n",
  str! "\n",
  str! "type Denom =\n",
  str! "| Zil\n",
  str! "| Token of ByStr20\n",
  str! "\n",
  str! "type Coins =\n",
  str! "| Coins of Denom Uint128\n",
  str! "\n",
  str! "type RewardParam =\n",
  str! "| RewardParam of Uint128 Uint128 Uint64 Uint64\n",
  str! "\n",
  str! "type Stake =\n",
  str! "| Stake of Uint128 Uint64 Uint64 Uint128\n",
  str! "\n",
  str! "type RewardResult =\n",
  str! "| RewardResult of Uint128 Uint128\n",
  str! "\n",
  str! "let fee_denom = Uint256 10000\n",
  str! "\n",
  str! "let zil_address = 0x0000000000000000000000000000000000000000\n",
  str! "\n",
  str! "let bool_active = True\n",
  str! "\n",
  str! "let bool_inactive = False\n",
  str! "\n",
  str! "let zil = Zil\n",
  str! "\n",
  str! "let zero = Uint128 0\n",
  str! "\n",
  str! "let zero_i256 = Int256 0\n",
  str! "\n",
  str! "let min_bps = Uint128 1\n",
  str! "\n",
  str! "let max_bps = Uint128 10000\n",
  str! "\n",
  str! "let seconds_per_year = Uint128 31536000\n",
  str! "\n",
  str! "let true = True\n",
  str! "\n",
  str! "let one_msg =\n",
  str! "  fun (m : Message) =>\n",
  str! "    let e = Nil {(Message)} in\n",
  str! "    Cons {(Message)} m e\n",
  str! "\n",
  str! "type Error =\n",
  str! "| CodeNotOwner\n",
  str! "| ContractFrozenFailure\n",
  str! "| Unauthorized\n",
  str! "| ContractFrozenFailurePaused\n",
  str! "| ContractFrozenFailureNotPaused\n",
  str! "| RewardTokenNotFound\n",
  str! "| NoStakeFoundBySender\n",
  str! "| AmountGreaterThanStakedAmount\n",
  str! "| NotAllowedToWithdrawStakeTokens\n",
  str! "| InvalidBPSError\n",
  str! "| CodeInsufficientFunds\n",
  str! "\n",
  str! "let make_error =\n",
  str! "  fun (result : Error) =>\n",
  str! "    let result_code =\n",
  str! "      match result with\n",
  str! "      | CodeNotOwner => Int32 -1\n",
  str! "      | ContractFrozenFailure => Int32 -2\n",
  str! "      | Unauthorized => Int32 -3\n",
  str! "      | ContractFrozenFailurePaused => Int32 -4\n",
  str! "      | ContractFrozenFailureNotPaused => Int32 -5\n",
  str! "      | RewardTokenNotFound => Int32 -6\n",
  str! "      | NoStakeFoundBySender => Int32 -7\n",
  str! "      | AmountGreaterThanStakedAmount => Int32 -8\n",
  str! "      | NotAllowedToWithdrawStakeTokens => Int32 -9\n",
  str! "      | InvalidBPSError => Int32 -10\n",
  str! "      | CodeInsufficientFunds => Int32 -11\n",
  str! "      end\n",
  str! "    in\n",
  str! "    { _exception : \"Error\"; code : result_code }\n",
  str! "\n",
  str! "let get_value =\n",
  str! "  fun (var : Option Uint128) =>\n",
  str! "    match var with\n",
  str! "    | Some v => v\n",
  str! "    | None => zero\n",
  str! "    end\n",
  str! "\n",
  str! "let uint64_to_uint128 : Uint64 -> Uint128 =\n",
  str! "  fun (x : Uint64) =>\n",
  str! "    let ox128 = builtin to_uint128 x in\n",
  str! "    match ox128 with\n",
  str! "    | None => let zero = Uint128 0 in builtin div zero zero\n",
  str! "    | Some x128 => x128\n",
  str! "    end\n",
  str! "\n",
  str! "let int256_to_uint128 : Int256 -> Uint128 =\n",
  str! "  fun (x : Int256) =>\n",
  str! "    let ox128 = builtin to_uint128 x in\n",
  str! "    match ox128 with\n",
  str! "    | None => let zero = Uint128 0 in builtin div zero zero\n",
  str! "    | Some x128 => x128\n",
  str! "    end\n",
  str! "\n",
  str! "let is_admin_or_owner : (Map ByStr20 Bool) -> ByStr20 -> ByStr20 -> Bool =\n",
  str! "  fun (administrators : Map ByStr20 Bool) =>\n",
  str! "    fun (owner : ByStr20) =>\n",
  str! "      fun (sender : ByStr20) =>\n",
  str! "        let is_admin = builtin contains administrators sender in\n",
  str! "        let is_owner = builtin eq sender owner in\n",
  str! "        let allowed = orb is_admin is_owner in\n",
  str! "        match allowed with\n",
  str! "        | True => True\n",
  str! "        | False => False\n",
  str! "        end\n",
  str! "\n",
  str! "let update_reward_param : RewardParam -> Uint64 -> RewardParam =\n",
  str! "  fun (reward_param : RewardParam) =>\n",
  str! "    fun (current_timestamp : Uint64) =>\n",
  str! "      match reward_param with\n",
  str! "      | RewardParam apr treasury_fee start_timestamp end_timestamp =>\n",
  str! "        let zero_timestamp = Uint64 0 in\n",
  str! "        let is_eq_timestamp_zero = builtin eq end_timestamp zero_timestamp in\n",
  str! "        match is_eq_timestamp_zero with\n",
  str! "        | True => RewardParam apr treasury_fee start_timestamp current_timestamp\n",
  str! "        | False => RewardParam apr treasury_fee start_timestamp end_timestamp\n",
  str! "        end\n",
  str! "      end\n",
  str! "\n",
  str! "let update_all_reward_params :\n",
  str! "  forall 'A. (List RewardParam) -> Uint64 -> List RewardParam =\n",
  str! "  tfun 'A =>\n",
  str! "    fun (l : List RewardParam) =>\n",
  str! "      fun (current_timestamp : Uint64) =>\n",
  str! "        let foldl = @list_foldl (RewardParam) (List RewardParam) in\n",
  str! "        let init = Nil {(RewardParam)} in\n",
  str! "        let iter =\n",
  str! "          fun (reward_params_list : List RewardParam) =>\n",
  str! "            fun (reward_param : RewardParam) =>\n",
  str! "              let updated_reward_param =\n",
  str! "                update_reward_param reward_param current_timestamp\n",
  str! "              in\n",
  str! "              Cons {(RewardParam)} updated_reward_param reward_params_list\n",
  str! "        in\n",
  str! "        foldl iter init l\n",
  str! "\n",
  str! "let is_timestamp_let : Uint64 -> Uint64 -> Bool =\n",
  str! "  fun (ts1 : Uint64) =>\n",
  str! "    fun (ts2 : Uint64) =>\n",
  str! "      let is_ts1_le_ts2 = uint64_lt ts1 ts2 in\n",
  str! "      let is_ts1_eq_ts2 = builtin eq ts1 ts2 in\n",
  str! "      orb is_ts1_le_ts2 is_ts1_eq_ts2\n",
  str! "\n",
  str! "let get_time_difference : Uint128 -> Uint64 -> RewardParam -> Uint64 -> Uint64 =\n",
  str! "  fun (staked_amount : Uint128) =>\n",
  str! "    fun (staked_timestamp : Uint64) =>\n",
  str! "      fun (reward_param : RewardParam) =>\n",
  str! "        fun (current_timestamp : Uint64) =>\n",
  str! "          match reward_param with\n",
  str! "          | RewardParam apr treasury_fee start_timestamp end_timestamp =>\n",
  str! "            let zero_timestamp = Uint64 0 in\n",
  str! "            let microseconds = Uint64 1000000 in\n",
  str! "            let is_eq_block_zero = builtin eq end_timestamp zero_timestamp in\n",
  str! "            match is_eq_block_zero with\n",
  str! "            | True =>\n",
  str! "              let is_staked_timestamp_leq_start_timestamp =\n",
  str! "                is_timestamp_let staked_timestamp start_timestamp\n",
  str! "              in\n",
  str! "              match is_staked_timestamp_leq_start_timestamp with\n",
  str! "              | True =>\n",
  str! "                let diff = builtin sub current_timestamp start_timestamp in\n",
  str! "                builtin div diff microseconds\n",
  str! "              | False =>\n",
  str! "                let diff = builtin sub current_timestamp staked_timestamp in\n",
  str! "                builtin div diff microseconds\n",
  str! "              end\n",
  str! "            | False =>\n",
  str! "              let is_staked_timestamp_leq_end_timestamp =\n",
  str! "                is_timestamp_let staked_timestamp end_timestamp\n",
  str! "              in\n",
  str! "              match is_staked_timestamp_leq_end_timestamp with\n",
  str! "              | True =>\n",
  str! "                let is_staked_timestamp_leq_start_timestamp =\n",
  str! "                  is_timestamp_let staked_timestamp start_timestamp\n",
  str! "                in\n",
  str! "                match is_staked_timestamp_leq_start_timestamp with\n",
  str! "                | True =>\n",
  str! "                  let diff = builtin sub end_timestamp start_timestamp in\n",
  str! "                  builtin div diff microseconds\n",
  str! "                | False =>\n",
  str! "                  let diff = builtin sub end_timestamp staked_timestamp in\n",
  str! "                  builtin div diff microseconds\n",
  str! "                end\n",
  str! "              | False => zero_timestamp\n",
  str! "              end\n",
  str! "            end\n",
  str! "          end\n",
  str! "\n",
  str! "let uint128_to_uint256 : Uint128 -> Uint256 =\n",
  str! "  fun (x : Uint128) =>\n",
  str! "    let ox256 = builtin to_uint256 x in\n",
  str! "    match ox256 with\n",
  str! "    | None => let zero = Uint256 0 in builtin div zero zero\n",
  str! "    | Some x256 => x256\n",
  str! "    end\n",
  str! "\n",
  str! "let muldiv : Uint128 -> Uint128 -> Uint128 -> Uint128 -> Uint256 -> Uint128 =\n",
  str! "  fun (w : Uint128) =>\n",
  str! "    fun (x : Uint128) =>\n",
  str! "      fun (y : Uint128) =>\n",
  str! "        fun (z : Uint128) =>\n",
  str! "          fun (f : Uint256) =>\n",
  str! "            let w256 = uint128_to_uint256 w in\n",
  str! "            let x256 = uint128_to_uint256 x in\n",
  str! "            let y256 = uint128_to_uint256 y in\n",
  str! "            let z256 = uint128_to_uint256 z in\n",
  str! "            let w_mul_x256 = builtin mul w256 x256 in\n",
  str! "            let w_mul_x_mul_y256 = builtin mul w_mul_x256 y256 in\n",
  str! "            let w_mul_x_mul_y256_div_z256 = builtin div w_mul_x_mul_y256 z256 in\n",
  str! "            let res256 = builtin div w_mul_x_mul_y256_div_z256 f in\n",
  str! "            let ores128 = builtin to_uint128 res256 in\n",
  str! "            match ores128 with\n",
  str! "            | None =>\n",
  str! "              let max_uint128 = Uint128 340282366920938463463374607431768211455\n",
  str! "              in\n",
  str! "              let fourtytwo128 = Uint128 42 in\n",
  str! "              builtin mul max_uint128 fourtytwo128\n",
  str! "            | Some res128 => res128\n",
  str! "            end\n",
  str! "\n",
  str! "let calculate_treasury_fee_amt : Uint128 -> Uint256 -> Uint128 -> Uint128 =\n",
  str! "  fun (treasury_fee : Uint128) =>\n",
  str! "    fun (fee_denom : Uint256) =>\n",
  str! "      fun (amount : Uint128) =>\n",
  str! "        let tf256 = uint128_to_uint256 treasury_fee in\n",
  str! "        let amt256 = uint128_to_uint256 amount in\n",
  str! "        let tf_mul_amt = builtin mul tf256 amt256 in\n",
  str! "        let res256 = builtin div tf_mul_amt fee_denom in\n",
  str! "        let ores128 = builtin to_uint128 res256 in\n",
  str! "        match ores128 with\n",
  str! "        | None =>\n",
  str! "          let max_uint128 = Uint128 340282366920938463463374607431768211455 in\n",
  str! "          let fourtytwo128 = Uint128 42 in\n",
  str! "          builtin mul max_uint128 fourtytwo128\n",
  str! "        | Some res128 => res128\n",
  str! "        end\n",
  str! "\n",
  str! "let calculate_rewards :\n",
  str! "  forall 'A.\n",
  str! "    (List RewardParam) ->\n",
  str! "    Uint128 ->\n",
  str! "    Uint64 ->\n",
  str! "    Uint64 ->\n",
  str! "    Uint128 ->\n",
  str! "    Uint256 ->\n",
  str! "    RewardResult =\n",
  str! "  tfun 'A =>\n",
  str! "    fun (l : List RewardParam) =>\n",
  str! "      fun (staked_amount : Uint128) =>\n",
  str! "        fun (staked_timestamp : Uint64) =>\n",
  str! "          fun (current_timestamp : Uint64) =>\n",
  str! "            fun (seconds_per_year : Uint128) =>\n",
  str! "              fun (fee_denom : Uint256) =>\n",
  str! "                let foldl = @list_foldl (RewardParam) (RewardResult) in\n",
  str! "                let init = RewardResult zero zero in\n",
  str! "                let iter =\n",
  str! "                  fun (rewards : RewardResult) =>\n",
  str! "                    fun (reward_param : RewardParam) =>\n",
  str! "                      match reward_param with\n",
  str! "                      | RewardParam apr treasury_fee start_block end_block =>\n",
  str! "                        let time_diff_ui64 =\n",
  str! "                          get_time_difference\n",
  str! "                            staked_amount staked_timestamp reward_param current_timestamp\n",
  str! "                        in\n",
  str! "                        let time_diff = uint64_to_uint128 time_diff_ui64 in\n",
  str! "                        let res_total =\n",
  str! "                          muldiv\n",
  str! "                            staked_amount time_diff apr seconds_per_year fee_denom\n",
  str! "                        in\n",
  str! "                        let treasury_fee_amt =\n",
  str! "                          calculate_treasury_fee_amt\n",
  str! "                            treasury_fee fee_denom res_total\n",
  str! "                        in\n",
  str! "                        let res = builtin sub res_total treasury_fee_amt in\n",
  str! "                        match rewards with\n",
  str! "                        | RewardResult curr_rewards_count curr_treasury_fee_amt =>\n",
  str! "                          let new_rewards_count =\n",
  str! "                            builtin add curr_rewards_count res\n",
  str! "                          in\n",
  str! "                          let new_treasury_fee_amt =\n",
  str! "                            builtin add curr_treasury_fee_amt treasury_fee_amt\n",
  str! "                          in\n",
  str! "                          RewardResult new_rewards_count new_treasury_fee_amt\n",
  str! "                        end\n",
  str! "                      end\n",
  str! "                in\n",
  str! "                foldl iter init l\n",
  str! "\n",
  str! "let portion =\n",
  str! "  fun (amount : Uint128) =>\n",
  str! "    fun (bps : Uint128) =>\n",
  str! "      let max_bps = Uint128 10000 in\n",
  str! "      let x = builtin div max_bps bps in\n",
  str! "      let result = builtin div amount x in\n",
  str! "      result\n",
  str! "\n",
  str! "let option_value =\n",
  str! "  tfun 'A =>\n",
  str! "    fun (default : 'A) =>\n",
  str! "      fun (maybe_val : Option 'A) =>\n",
  str! "        match maybe_val with\n",
  str! "        | Some v => v\n",
  str! "        | None => default\n",
  str! "        end\n",
  str! "\n",
  str! "let option_timestamp = @option_value (Uint64)\n",
  str! "\n",
  str! "let get_prev_bnum =\n",
  str! "  fun (cur_blk : BNum) =>\n",
  str! "    let one_bnum = BNum 1 in\n",
  str! "    let zero_block = BNum 0 in\n",
  str! "    let prev_block = builtin bsub cur_blk one_bnum in\n",
  str! "    let prev_block_uint128 = int256_to_uint128 prev_block in\n",
  str! "    builtin badd zero_block prev_block_uint128\n",
  str! "\n",
  str! "\n",
  str! "contract StakingContract\n",
  str! "  (\n",
  str! "    initial_owner : ByStr20,\n",
  str! "    initial_staking_token_address :\n",
  str! "      ByStr20 with contract\n",
  str! "        field allowances : Map ByStr20 (Map ByStr20 Uint128),\n",
  str! "        field balances : Map ByStr20 Uint128,\n",
  str! "        field total_supply : Uint128\n",
  str! "      end\n",
  str! "  )\n",
  str! "\n",
  str! "\n",
  str! "field owner : ByStr20 = initial_owner\n",
  str! "\n",
  str! "field staking_token_address : ByStr20 = initial_staking_token_address\n",
  str! "\n",
  str! "field pending_owner : ByStr20 = zil_address\n",
  str! "\n",
  str! "field paused : Bool = True\n",
  str! "\n",
  str! "field reward_pairs : Map ByStr20 (List RewardParam) =\n",
  str! "  Emp (ByStr20) (List RewardParam)\n",
  str! "\n",
  str! "field stakes : Map ByStr20 Stake = Emp (ByStr20) (Stake)\n",
  str! "\n",
  str! "field rewards : Map ByStr20 (Map ByStr20 Uint128) =\n",
  str! "  Emp (ByStr20) (Map ByStr20 Uint128)\n",
  str! "\n",
  str! "field administrators : Map ByStr20 Bool = Emp (ByStr20) (Bool)\n",
  str! "\n",
  str! "field treasury_balances : Map ByStr20 Uint128 = Emp (ByStr20) (Uint128)\n",
  str! "\n",
  str! "field treasury_fees_address : ByStr20 = initial_owner\n",
  str! "\n",
  str! "field penalty_fee_balances : Uint128 = zero\n",
  str! "\n",
  str! "field total_staked_amount : Uint128 = zero\n",
  str! "\n",
  str! "procedure Throw (err : Error)\n",
  str! "  e = make_error err;\n",
  str! "  throw e\n",
  str! "end\n",
  str! "\n",
  str! "procedure EnsureContractIsNotPaused ()\n",
  str! "  paused_tmp <- paused;\n",
  str! "  match paused_tmp with\n",
  str! "  | False =>\n",
  str! "  | True =>\n",
  str! "    err = ContractFrozenFailurePaused;\n",
  str! "    Throw err\n",
  str! "  end\n",
  str! "end\n",
  str! "\n",
  str! "procedure EnsureContractIsPaused ()\n",
  str! "  paused_tmp <- paused;\n",
  str! "  match paused_tmp with\n",
  str! "  | False =>\n",
  str! "    err = ContractFrozenFailureNotPaused;\n",
  str! "    Throw err\n",
  str! "  | True =>\n",
  str! "  end\n",
  str! "end\n",
  str! "\n",
  str! "procedure EnsureSenderIsOwner (initiator : ByStr20)\n",
  str! "  current_owner <- owner;\n",
  str! "  is_owner = builtin eq initiator current_owner;\n",
  str! "  match is_owner with\n",
  str! "  | True =>\n",
  str! "  | False =>\n",
  str! "    err = CodeNotOwner;\n",
  str! "    Throw err\n",
  str! "  end\n",
  str! "end\n",
  str! "\n",
  str! "procedure EnsureSenderIsAdminOrOwner (address : ByStr20)\n",
  str! "  admins <- administrators;\n",
  str! "  current_owner <- owner;\n",
  str! "  check_allowed = is_admin_or_owner admins current_owner address;\n",
  str! "  match check_allowed with\n",
  str! "  | True =>\n",
  str! "  | False =>\n",
  str! "    err = Unauthorized;\n",
  str! "    Throw err\n",
  str! "  end\n",
  str! "end\n",
  str! "\n",
  str! "procedure EnsureNotStakeToken (address : ByStr20)\n",
  str! "  stake_token_addr <- staking_token_address;\n",
  str! "  is_same = builtin eq address stake_token_addr;\n",
  str! "  match is_same with\n",
  str! "  | True =>\n",
  str! "    err = NotAllowedToWithdrawStakeTokens;\n",
  str! "    Throw err\n",
  str! "  | False =>\n",
  str! "  end\n",
  str! "end\n",
  str! "\n",
  str! "procedure RequireValidBPS (val_bps : Uint128)\n",
  str! "  is_gte_min = uint128_ge val_bps min_bps;\n",
  str! "  is_lte_max = uint128_le val_bps max_bps;\n",
  str! "  is_valid = andb is_gte_min is_lte_max;\n",
  str! "  match is_valid with\n",
  str! "  | True =>\n",
  str! "  | False =>\n",
  str! "    error = InvalidBPSError;\n",
  str! "    Throw error\n",
  str! "  end\n",
  str! "end\n",
  str! "\n",
  str! "procedure Send (coins : Coins, to_address : ByStr20)\n",
  str! "  match coins with\n",
  str! "  | Coins denom amount =>\n",
  str! "    match denom with\n",
  str! "    | Zil =>\n",
  str! "      msg = { _tag : \"AddFunds\"; _recipient : to_address; _amount : amount };\n",
  str! "      msgs = one_msg msg;\n",
  str! "      send msgs\n",
  str! "    | Token token =>\n",
  str! "      msg_to_token =\n",
  str! "        {\n",
  str! "          _tag : \"Transfer\";\n",
  str! "          _recipient : token;\n",
  str! "          _amount : zero;\n",
  str! "          to : to_address;\n",
  str! "          amount : amount\n",
  str! "        };\n",
  str! "      msgs = one_msg msg_to_token;\n",
  str! "      send msgs\n",
  str! "    end\n",
  str! "  end\n",
  str! "end\n",
  str! "\n",
  str! "procedure Receive (coins : Coins, initiator : ByStr20)\n",
  str! "  EnsureContractIsNotPaused;\n",
  str! "  match coins with\n",
  str! "  | Coins denom amount =>\n",
  str! "    match denom with\n",
  str! "    | Zil =>\n",
  str! "      needs_refund = uint128_gt _amount amount;\n",
  str! "      accept;\n",
  str! "      match needs_refund with\n",
  str! "      | True =>\n",
  str! "        refund =\n",
  str! "          let refund_amount = builtin sub _amount amount in\n",
  str! "          Coins zil refund_amount;\n",
  str! "        Send refund initiator\n",
  str! "      | False =>\n",
  str! "      end\n",
  str! "    | Token token =>\n",
  str! "      msg_to_token =\n",
  str! "        {\n",
  str! "          _tag : \"TransferFrom\";\n",
  str! "          _recipient : token;\n",
  str! "          _amount : zero;\n",
  str! "          from : initiator;\n",
  str! "          to : _this_address;\n",
  str! "          amount : amount\n",
  str! "        };\n",
  str! "      msgs = one_msg msg_to_token;\n",
  str! "      send msgs\n",
  str! "    end\n",
  str! "  end\n",
  str! "end\n",
  str! "\n",
  str! "procedure UpdateTreasuryFeeAmount (reward_token : ByStr20, amount : Uint128)\n",
  str! "  is_amount_eq_zero = builtin eq amount zero;\n",
  str! "  match is_amount_eq_zero with\n",
  str! "  | False =>\n",
  str! "    maybe_treasury_fee_amount <- treasury_balances[reward_token];\n",
  str! "    match maybe_treasury_fee_amount with\n",
  str! "    | Some curr_amount =>\n",
  str! "      new_amount = builtin add curr_amount amount;\n",
  str! "      treasury_balances[reward_token] := new_amount;\n",
  str! "      e =\n",
  str! "        {\n",
  str! "          _eventname : \"UpdateTreasuryFeeAmountWithPreviousValueSuccess\";\n",
  str! "          sender : _origin;\n",
  str! "          reward_token : reward_token;\n",
  str! "          old_amount : curr_amount;\n",
  str! "          new_amount : new_amount;\n",
  str! "          difference : amount\n",
  str! "        };\n",
  str! "      event e\n",
  str! "    | None =>\n",
  str! "      treasury_balances[reward_token] := amount;\n",
  str! "      e =\n",
  str! "        {\n",
  str! "          _eventname : \"UpdateRewardsAmountFirstClaimSuccess\";\n",
  str! "          sender : _origin;\n",
  str! "          reward_token : reward_token;\n",
  str! "          new_amount : amount\n",
  str! "        };\n",
  str! "      event e\n",
  str! "    end\n",
  str! "  | True =>\n",
  str! "  end\n",
  str! "end\n",
  str! "\n",
  str! "procedure UpdateRewardsAmount (reward_token : ByStr20, amount : Uint128)\n",
  str! "  is_amount_eq_zero = builtin eq amount zero;\n",
  str! "  match is_amount_eq_zero with\n",
  str! "  | False =>\n",
  str! "    maybe_rewards_amount <- rewards[reward_token][_origin];\n",
  str! "    match maybe_rewards_amount with\n",
  str! "    | Some curr_amount =>\n",
  str! "      new_amount = builtin add curr_amount amount;\n",
  str! "      rewards[reward_token][_origin] := new_amount;\n",
  str! "      e =\n",
  str! "        {\n",
  str! "          _eventname : \"UpdateRewardsAmountWithPreviousValueSuccess\";\n",
  str! "          sender : _origin;\n",
  str! "          reward_token : reward_token;\n",
  str! "          old_amount : curr_amount;\n",
  str! "          new_amount : new_amount;\n",
  str! "          difference : amount\n",
  str! "        };\n",
  str! "      event e\n",
  str! "    | None =>\n",
  str! "      rewards[reward_token][_origin] := amount;\n",
  str! "      e =\n",
  str! "        {\n",
  str! "          _eventname : \"UpdateRewardsAmountFirstClaimSuccess\";\n",
  str! "          sender : _origin;\n",
  str! "          reward_token : reward_token;\n",
  str! "          new_amount : amount\n",
  str! "        };\n",
  str! "      event e\n",
  str! "    end\n",
  str! "  | True =>\n",
  str! "  end\n",
  str! "end\n",
  str! "\n",
  str! "procedure UpdateRewards (reward_token : ByStr20, reward_res : RewardResult)\n",
  str! "  match reward_res with\n",
  str! "  | RewardResult total_rewards treasury_fee_amt =>\n",
  str! "    UpdateRewardsAmount reward_token total_rewards;\n",
  str! "    UpdateTreasuryFeeAmount reward_token treasury_fee_amt\n",
  str! "  end\n",
  str! "end\n",
  str! "\n",
  str! "procedure DoClaimRewards (reward_pair : Pair ByStr20 (List RewardParam))\n",
  str! "  maybe_stake <- stakes[_origin];\n",
  str! "  current_block <-& BLOCKNUMBER;\n",
  str! "  prev_block = get_prev_bnum current_block;\n",
  str! "  ts <-& TIMESTAMP(prev_block);\n",
  str! "  zero_64 = Uint64 0;\n",
  str! "  current_timestamp = option_timestamp zero_64 ts;\n",
  str! "  match maybe_stake with\n",
  str! "  | Some stake =>\n",
  str! "    match stake with\n",
  str! "    | Stake staked_amount staked_timestamp end_block penalty_fee =>\n",
  str! "      reward_token_address =\n",
  str! "        let fst_reward_token_address = @fst (ByStr20) (List RewardParam) in\n",
  str! "        fst_reward_token_address reward_pair;\n",
  str! "      reward_param_list =\n",
  str! "        let snd_reward_param_list = @snd (ByStr20) (List RewardParam) in\n",
  str! "        snd_reward_param_list reward_pair;\n",
  str! "      calculate_rewards_fun = @calculate_rewards (List RewardParam);\n",
  str! "      maybe_running_interest_amount <- rewards[reward_token_address][_origin];\n",
  str! "      match maybe_running_interest_amount with\n",
  str! "      | Some running_interest_amount =>\n",
  str! "        total_amount = builtin add staked_amount running_interest_amount;\n",
  str! "        reward_res =\n",
  str! "          calculate_rewards_fun\n",
  str! "            reward_param_list total_amount staked_timestamp current_timestamp seconds_per_year fee_denom;\n",
  str! "        UpdateRewards reward_token_address reward_res\n",
  str! "      | None =>\n",
  str! "        reward_res =\n",
  str! "          calculate_rewards_fun\n",
  str! "            reward_param_list staked_amount staked_timestamp current_timestamp seconds_per_year fee_denom;\n",
  str! "        UpdateRewards reward_token_address reward_res\n",
  str! "      end\n",
  str! "    end\n",
  str! "  | None =>\n",
  str! "    err = NoStakeFoundBySender;\n",
  str! "    Throw err\n",
  str! "  end\n",
  str! "end\n",
  str! "\n",
  str! "procedure DoRemoveRewardToken (reward_token_address : ByStr20)\n",
  str! "  current_block <-& BLOCKNUMBER;\n",
  str! "  prev_block = get_prev_bnum current_block;\n",
  str! "  ts <-& TIMESTAMP(prev_block);\n",
  str! "  zero_64 = Uint64 0;\n",
  str! "  current_timestamp = option_timestamp zero_64 ts;\n",
  str! "  maybe_reward_params_list <- reward_pairs[reward_token_address];\n",
  str! "  match maybe_reward_params_list with\n",
  str! "  | Some reward_params_list =>\n",
  str! "    update_all_reward_params_fun = @update_all_reward_params (List RewardParam);\n",
  str! "    updated_reward_params_list =\n",
  str! "      update_all_reward_params_fun reward_params_list current_timestamp;\n",
  str! "    reward_pairs[reward_token_address] := updated_reward_params_list\n",
  str! "  | None =>\n",
  str! "    err = RewardTokenNotFound;\n",
  str! "    Throw err\n",
  str! "  end\n",
  str! "end\n",
  str! "\n",
  str! "procedure DoRemoveAllRewardTokens\n",
  str! "  (reward_pair : Pair ByStr20 (List RewardParam))\n",
  str! "  reward_token_address =\n",
  str! "    let fst_reward_token_address = @fst (ByStr20) (List RewardParam) in\n",
  str! "    fst_reward_token_address reward_pair;\n",
  str! "  DoRemoveRewardToken reward_token_address\n",
  str! "end\n",
  str! "\n",
  str! "procedure DoWithdrawRewards (reward_pair : Pair ByStr20 (List RewardParam))\n",
  str! "  reward_token_address =\n",
  str! "    let fst_reward_token_address = @fst (ByStr20) (List RewardParam) in\n",
  str! "    fst_reward_token_address reward_pair;\n",
  str! "  maybe_reward_token_amt <- rewards[reward_token_address][_origin];\n",
  str! "  match maybe_reward_token_amt with\n",
  str! "  | Some reward_token_amt =>\n",
  str! "    is_zil = builtin eq reward_token_address zil_address;\n",
  str! "    match is_zil with\n",
  str! "    | True =>\n",
  str! "      stake_token_addr <- staking_token_address;\n",
  str! "      is_staked_token_same_as_withdraw =\n",
  str! "        builtin eq reward_token_address stake_token_addr;\n",
  str! "      match is_staked_token_same_as_withdraw with\n",
  str! "      | True =>\n",
  str! "        balances <- _balance;\n",
  str! "        total_staked <- total_staked_amount;\n",
  str! "        available_bal_to_withdraw = builtin sub balances total_staked;\n",
  str! "        is_valid_withdrawal_amount =\n",
  str! "          uint128_le reward_token_amt available_bal_to_withdraw;\n",
  str! "        match is_valid_withdrawal_amount with\n",
  str! "        | True =>\n",
  str! "          zils_out = Coins zil reward_token_amt;\n",
  str! "          Send zils_out _origin\n",
  str! "        | False =>\n",
  str! "          err = CodeInsufficientFunds;\n",
  str! "          Throw err\n",
  str! "        end\n",
  str! "      | False =>\n",
  str! "        zils_out = Coins zil reward_token_amt;\n",
  str! "        Send zils_out _origin\n",
  str! "      end\n",
  str! "    | False =>\n",
  str! "      stake_token_addr <- staking_token_address;\n",
  str! "      is_staked_token_same_as_withdraw =\n",
  str! "        builtin eq reward_token_address stake_token_addr;\n",
  str! "      match is_staked_token_same_as_withdraw with\n",
  str! "      | True =>\n",
  str! "        balances <-& initial_staking_token_address.balances[_this_address];\n",
  str! "        contract_balance = get_value balances;\n",
  str! "        total_staked <- total_staked_amount;\n",
  str! "        available_bal_to_withdraw = builtin sub contract_balance total_staked;\n",
  str! "        is_valid_withdrawal_amount =\n",
  str! "          uint128_le reward_token_amt available_bal_to_withdraw;\n",
  str! "        match is_valid_withdrawal_amount with\n",
  str! "        | True =>\n",
  str! "          reward_token = Token reward_token_address;\n",
  str! "          tokens_out = Coins reward_token reward_token_amt;\n",
  str! "          Send tokens_out _origin\n",
  str! "        | False =>\n",
  str! "          err = CodeInsufficientFunds;\n",
  str! "          Throw err\n",
  str! "        end\n",
  str! "      | False =>\n",
  str! "        reward_token = Token reward_token_address;\n",
  str! "        tokens_out = Coins reward_token reward_token_amt;\n",
  str! "        Send tokens_out _origin\n",
  str! "      end\n",
  str! "    end;\n",
  str! "    delete rewards[reward_token_address][_origin];\n",
  str! "    e =\n",
  str! "      {\n",
  str! "        _eventname : \"WithdrawRewardsSuccess\";\n",
  str! "        sender : _origin;\n",
  str! "        reward_token : reward_token_address;\n",
  str! "        amount : reward_token_amt\n",
  str! "      };\n",
  str! "    event e\n",
  str! "  | None =>\n",
  str! "    e =\n",
  str! "      {\n",
  str! "        _eventname : \"WithdrawRewardsSuccess\";\n",
  str! "        sender : _origin;\n",
  str! "        reward_token : reward_token_address;\n",
  str! "        amount : zero\n",
  str! "      };\n",
  str! "    event e\n",
  str! "  end\n",
  str! "end\n",
  str! "\n",
  str! "transition AddStake\n",
  str! "  (amount : Uint128, expiration_time : Uint64, penalty_fee_bps : Uint128)\n",
  str! "  current_block <-& BLOCKNUMBER;\n",
  str! "  prev_block = get_prev_bnum current_block;\n",
  str! "  ts <-& TIMESTAMP(prev_block);\n",
  str! "  zero_64 = Uint64 0;\n",
  str! "  current_timestamp = option_timestamp zero_64 ts;\n",
  str! "  maybe_stake <- stakes[_origin];\n",
  str! "  RequireValidBPS penalty_fee_bps;\n",
  str! "  token_address <- staking_token_address;\n",
  str! "  token = Token token_address;\n",
  str! "  tokens_in = Coins token amount;\n",
  str! "  Receive tokens_in _origin;\n",
  str! "  match maybe_stake with\n",
  str! "  | Some stake =>\n",
  str! "    match stake with\n",
  str! "    | Stake staked_amount timestamp end_timestamp penalty_fee =>\n",
  str! "      curent_reward_pairs <- reward_pairs;\n",
  str! "      rewards_list = builtin to_list curent_reward_pairs;\n",
  str! "      forall rewards_list DoClaimRewards;\n",
  str! "      total_amount = builtin add staked_amount amount;\n",
  str! "      updated_stake =\n",
  str! "        Stake total_amount current_timestamp end_timestamp penalty_fee;\n",
  str! "      stakes[_origin] := updated_stake;\n",
  str! "      total_staked <- total_staked_amount;\n",
  str! "      new_total_staked = builtin add total_staked amount;\n",
  str! "      total_staked_amount := new_total_staked\n",
  str! "    end\n",
  str! "  | None =>\n",
  str! "    stake = Stake amount current_timestamp expiration_time penalty_fee_bps;\n",
  str! "    stakes[_origin] := stake;\n",
  str! "    total_staked <- total_staked_amount;\n",
  str! "    new_total_staked = builtin add total_staked amount;\n",
  str! "    total_staked_amount := new_total_staked\n",
  str! "  end\n",
  str! "end\n",
  str! "\n",
  str! "transition RemoveStake (amount : Uint128)\n",
  str! "  current_block <-& BLOCKNUMBER;\n",
  str! "  prev_block = get_prev_bnum current_block;\n",
  str! "  ts <-& TIMESTAMP(prev_block);\n",
  str! "  zero_64 = Uint64 0;\n",
  str! "  current_timestamp = option_timestamp zero_64 ts;\n",
  str! "  maybe_stake <- stakes[_origin];\n",
  str! "  match maybe_stake with\n",
  str! "  | Some (Stake staked_amount staked_timestamp end_timestamp penalty_fee) =>\n",
  str! "    is_amount_less_than_staked_amount = builtin lt amount staked_amount;\n",
  str! "    is_amount_equal_to_staked_amount = builtin eq amount staked_amount;\n",
  str! "    is_amount_less_or_equal_to_staked_amount =\n",
  str! "      orb is_amount_less_than_staked_amount is_amount_equal_to_staked_amount;\n",
  str! "    match is_amount_less_or_equal_to_staked_amount with\n",
  str! "    | True =>\n",
  str! "      curent_reward_pairs <- reward_pairs;\n",
  str! "      rewards_list = builtin to_list curent_reward_pairs;\n",
  str! "      forall rewards_list DoClaimRewards;\n",
  str! "      is_lt_curr_timestamp = uint64_lt current_timestamp end_timestamp;\n",
  str! "      match is_lt_curr_timestamp with\n",
  str! "      | True =>\n",
  str! "        fee_bps = portion amount penalty_fee;\n",
  str! "        new_amount = builtin sub amount fee_bps;\n",
  str! "        penalty_fee_amount <- penalty_fee_balances;\n",
  str! "        new_penalty_fee_amount = builtin add penalty_fee_amount fee_bps;\n",
  str! "        penalty_fee_balances := new_penalty_fee_amount;\n",
  str! "        token_address <- staking_token_address;\n",
  str! "        staked_token = Token token_address;\n",
  str! "        output = Coins staked_token new_amount;\n",
  str! "        Send output _origin\n",
  str! "      | False =>\n",
  str! "        token_address <- staking_token_address;\n",
  str! "        staked_token = Token token_address;\n",
  str! "        output = Coins staked_token amount;\n",
  str! "        Send output _origin\n",
  str! "      end;\n",
  str! "      remaining_amount = builtin sub staked_amount amount;\n",
  str! "      is_remaining_amount_eq_zero = builtin eq remaining_amount zero;\n",
  str! "      match is_remaining_amount_eq_zero with\n",
  str! "      | True => delete stakes[_origin]\n",
  str! "      | False =>\n",
  str! "        updated_stake =\n",
  str! "          Stake remaining_amount current_timestamp end_timestamp penalty_fee;\n",
  str! "        stakes[_origin] := updated_stake\n",
  str! "      end;\n",
  str! "      total_staked <- total_staked_amount;\n",
  str! "      new_total_staked = builtin sub total_staked amount;\n",
  str! "      total_staked_amount := new_total_staked\n",
  str! "    | False =>\n",
  str! "      err = AmountGreaterThanStakedAmount;\n",
  str! "      Throw err\n",
  str! "    end\n",
  str! "  | None =>\n",
  str! "    err = NoStakeFoundBySender;\n",
  str! "    Throw err\n",
  str! "  end\n",
  str! "end\n",
  str! "\n",
  str! "transition ClaimRewards ()\n",
  str! "  current_block <-& BLOCKNUMBER;\n",
  str! "  prev_block = get_prev_bnum current_block;\n",
  str! "  ts <-& TIMESTAMP(prev_block);\n",
  str! "  zero_64 = Uint64 0;\n",
  str! "  current_timestamp = option_timestamp zero_64 ts;\n",
  str! "  maybe_stake <- stakes[_origin];\n",
  str! "  match maybe_stake with\n",
  str! "  | Some (Stake staked_amount staked_timestamp end_timestamp penalty_fee) =>\n",
  str! "    curent_reward_pairs <- reward_pairs;\n",
  str! "    rewards_list = builtin to_list curent_reward_pairs;\n",
  str! "    forall rewards_list DoClaimRewards;\n",
  str! "    forall rewards_list DoWithdrawRewards;\n",
  str! "    updated_stake =\n",
  str! "      Stake staked_amount current_timestamp end_timestamp penalty_fee;\n",
  str! "    stakes[_origin] := updated_stake\n",
  str! "  | None =>\n",
  str! "    curent_reward_pairs <- reward_pairs;\n",
  str! "    rewards_list = builtin to_list curent_reward_pairs;\n",
  str! "    forall rewards_list DoWithdrawRewards\n",
  str! "  end\n",
  str! "end\n",
  str! "\n",
  str! "transition AddRewardToken\n",
  str! "  (reward_token_address : ByStr20, apr : Uint128, treasury_fee : Uint128)\n",
  str! "  EnsureSenderIsAdminOrOwner _sender;\n",
  str! "  current_block <-& BLOCKNUMBER;\n",
  str! "  prev_block = get_prev_bnum current_block;\n",
  str! "  ts <-& TIMESTAMP(prev_block);\n",
  str! "  zero_64 = Uint64 0;\n",
  str! "  current_timestamp = option_timestamp zero_64 ts;\n",
  str! "  end_timestamp = Uint64 0;\n",
  str! "  reward_param = RewardParam apr treasury_fee current_timestamp end_timestamp;\n",
  str! "  maybe_reward_params_list <- reward_pairs[reward_token_address];\n",
  str! "  match maybe_reward_params_list with\n",
  str! "  | Some reward_params_list =>\n",
  str! "    update_all_reward_params_fun = @update_all_reward_params (List RewardParam);\n",
  str! "    updated_reward_params_list =\n",
  str! "      update_all_reward_params_fun reward_params_list current_timestamp;\n",
  str! "    reward_params_list_new =\n",
  str! "      Cons {(RewardParam)} reward_param updated_reward_params_list;\n",
  str! "    reward_pairs[reward_token_address] := reward_params_list_new\n",
  str! "  | None =>\n",
  str! "    reward_params_list = Nil {(RewardParam)};\n",
  str! "    reward_params_list_new =\n",
  str! "      Cons {(RewardParam)} reward_param reward_params_list;\n",
  str! "    reward_pairs[reward_token_address] := reward_params_list_new\n",
  str! "  end\n",
  str! "end\n",
  str! "\n",
  str! "transition RemoveRewardToken (reward_token_address : ByStr20)\n",
  str! "  EnsureSenderIsAdminOrOwner _sender;\n",
  str! "  DoRemoveRewardToken reward_token_address\n",
  str! "end\n",
  str! "\n",
  str! "transition RemoveAllRewardTokens ()\n",
  str! "  EnsureSenderIsAdminOrOwner _sender;\n",
  str! "  curent_reward_pairs <- reward_pairs;\n",
  str! "  rewards_list = builtin to_list curent_reward_pairs;\n",
  str! "  forall rewards_list DoRemoveAllRewardTokens\n",
  str! "end\n",
  str! "\n",
  str! "transition Pause ()\n",
  str! "  EnsureSenderIsAdminOrOwner _sender;\n",
  str! "  paused := bool_active\n",
  str! "end\n",
  str! "\n",
  str! "transition UnPause ()\n",
  str! "  EnsureSenderIsAdminOrOwner _sender;\n",
  str! "  paused := bool_inactive\n",
  str! "end\n",
  str! "\n",
  str! "transition AddAdmin (address : ByStr20)\n",
  str! "  EnsureSenderIsOwner _sender;\n",
  str! "  administrators[address] := true;\n",
  str! "  e = { _eventname : \"AddAdminSuccess\"; addressAdded : address };\n",
  str! "  event e\n",
  str! "end\n",
  str! "\n",
  str! "transition RemoveAdmin (address : ByStr20)\n",
  str! "  EnsureSenderIsOwner _sender;\n",
  str! "  delete administrators[address];\n",
  str! "  e = { _eventname : \"RemoveAdminSuccess\"; address : address };\n",
  str! "  event e\n",
  str! "end\n",
  str! "\n",
  str! "transition TransferOwnership (new_owner : ByStr20)\n",
  str! "  EnsureSenderIsOwner _sender;\n",
  str! "  existing_owner <- owner;\n",
  str! "  new_owner_is_existing_owner = builtin eq new_owner existing_owner;\n",
  str! "  match new_owner_is_existing_owner with\n",
  str! "  | True =>\n",
  str! "    e = { _exception : \"ExistingOwner\" };\n",
  str! "    throw e\n",
  str! "  | False => pending_owner := new_owner\n",
  str! "  end\n",
  str! "end\n",
  str! "\n",
  str! "transition AcceptPendingOwnership ()\n",
  str! "  new_owner <- pending_owner;\n",
  str! "  sender_is_pending_owner = builtin eq _sender new_owner;\n",
  str! "  match sender_is_pending_owner with\n",
  str! "  | False =>\n",
  str! "    e = { _exception : \"InvalidSender\" };\n",
  str! "    throw e\n",
  str! "  | True =>\n",
  str! "    owner := new_owner;\n",
  str! "    pending_owner := zil_address;\n",
  str! "    e = { _eventname : \"OwnershipTransferred\"; owner : new_owner };\n",
  str! "    event e\n",
  str! "  end\n",
  str! "end\n",
  str! "\n",
  str! "transition WithdrawTokens (token_address : ByStr20, token_amount : Uint128)\n",
  str! "  EnsureSenderIsOwner _sender;\n",
  str! "  stake_token_addr <- staking_token_address;\n",
  str! "  is_staked_token_same_as_withdraw = builtin eq token_address stake_token_addr;\n",
  str! "  match is_staked_token_same_as_withdraw with\n",
  str! "  | True =>\n",
  str! "    balances <-& initial_staking_token_address.balances[_this_address];\n",
  str! "    contract_balance = get_value balances;\n",
  str! "    total_staked <- total_staked_amount;\n",
  str! "    available_bal_to_withdraw = builtin sub contract_balance total_staked;\n",
  str! "    is_valid_withdrawal_amount =\n",
  str! "      uint128_le token_amount available_bal_to_withdraw;\n",
  str! "    match is_valid_withdrawal_amount with\n",
  str! "    | True =>\n",
  str! "      reward_token = Token token_address;\n",
  str! "      tokens_out = Coins reward_token token_amount;\n",
  str! "      Send tokens_out _sender\n",
  str! "    | False =>\n",
  str! "      err = CodeInsufficientFunds;\n",
  str! "      Throw err\n",
  str! "    end\n",
  str! "  | False =>\n",
  str! "    reward_token = Token token_address;\n",
  str! "    tokens_out = Coins reward_token token_amount;\n",
  str! "    Send tokens_out _sender\n",
  str! "  end\n",
  str! "end\n",
  str! "\n",
  str! "transition WithdrawZils (zil_amount : Uint128)\n",
  str! "  EnsureSenderIsAdminOrOwner _sender;\n",
  str! "  zils_out = Coins zil zil_amount;\n",
  str! "  Send zils_out _sender\n",
  str! "end\n",
  str! "\n",
  str! "transition Deposit (token_address : ByStr20, token_amount : Uint128)\n",
  str! "  EnsureSenderIsAdminOrOwner _sender;\n",
  str! "  token = Token token_address;\n",
  str! "  tokens_in = Coins token token_amount;\n",
  str! "  Receive tokens_in _sender\n",
  str! "end\n",
  str! "\n",
  str! "transition TransferFromSuccessCallBack\n",
  str! "  (initiator : ByStr20, sender : ByStr20, recipient : ByStr20, amount : Uint128)\n",
  str! "\n",
  str! "end\n",
  str! "\n",
  str! "transition TransferSuccessCallBack\n",
  str! "  (sender : ByStr20, recipient : ByStr20, amount : Uint128)\n",
  str! "\n",
  str! "end\n",
  str! "\n",
  str! "transition RecipientAcceptTransferFrom\n",
  str! "  (initiator : ByStr20, sender : ByStr20, recipient : ByStr20, amount : Uint128)\n",
  str! "  is_valid_transfer_to_self =\n",
  str! "    let self_triggered = builtin eq initiator _this_address in\n",
  str! "    let is_transfer_to_self = builtin eq recipient _this_address in\n",
  str! "    andb self_triggered is_transfer_to_self;\n",
  str! "  match is_valid_transfer_to_self with\n",
  str! "  | False =>\n",
  str! "    e = { _exception : \"InvalidInvocation\" };\n",
  str! "    throw e\n",
  str! "  | True =>\n",
  str! "  end\n",
  str! "end\n",
  str! "\n",
  str! "transition AddFunds ()\n",
  str! "  accept\n",
  str! "end\n",
  str! "\n",
  str! "transition RecipientAcceptTransfer\n",
  str! "  (sender : ByStr20, recipient : ByStr20, amount : Uint128)\n",
  str! "\n",
  str! "end\n",
  str! "\n"]

/-- full_contract_tests.rs: the contract it must give -/
example : fromStr demoEnv docStakingContract = .ok ⟨(str! "StakingContract"),
    [⟨(str! "initial_owner"), .byStr20⟩, ⟨(str! "initial_staking_token_address"), (.byStr20With (str! "contract") [⟨(str! "allowances"), (.map .byStr20 (.map .byStr20 .uint128))⟩, ⟨(str! "balances"), (.map .byStr20 .uint128)⟩, ⟨(str! "total_supply"), .uint128⟩])⟩],
    [⟨(str! "owner"), .byStr20⟩, ⟨(str! "staking_token_address"), .byStr20⟩, ⟨(str! "pending_owner"), .byStr20⟩, ⟨(str! "paused"), .bool⟩, ⟨(str! "reward_pairs"), (.map .byStr20 (.list (.other (str! "RewardParam"))))⟩, ⟨(str! "stakes"), (.map .byStr20 (.other (str! "Stake")))⟩, ⟨(str! "rewards"), (.map .byStr20 (.map .byStr20 .uint128))⟩, ⟨(str! "administrators"), (.map .byStr20 .bool)⟩, ⟨(str! "treasury_balances"), (.map .byStr20 .uint128)⟩, ⟨(str! "treasury_fees_address"), .byStr20⟩, ⟨(str! "penalty_fee_balances"), .uint128⟩, ⟨(str! "total_staked_amount"), .uint128⟩],
    [⟨(str! "AddStake"), [⟨(str! "amount"), .uint128⟩, ⟨(str! "expiration_time"), .uint64⟩, ⟨(str! "penalty_fee_bps"), .uint128⟩]⟩, ⟨(str! "RemoveStake"), [⟨(str! "amount"), .uint128⟩]⟩, ⟨(str! "ClaimRewards"), []⟩, ⟨(str! "AddRewardToken"), [⟨(str! "reward_token_address"), .byStr20⟩, ⟨(str! "apr"), .uint128⟩, ⟨(str! "treasury_fee"), .uint128⟩]⟩, ⟨(str! "RemoveRewardToken"), [⟨(str! "reward_token_address"), .byStr20⟩]⟩, ⟨(str! "RemoveAllRewardTokens"), []⟩, ⟨(str! "Pause"), []⟩, ⟨(str! "UnPause"), []⟩, ⟨(str! "AddAdmin"), [⟨(str! "address"), .byStr20⟩]⟩, ⟨(str! "RemoveAdmin"), [⟨(str! "address"), .byStr20⟩]⟩, ⟨(str! "TransferOwnership"), [⟨(str! "new_owner"), .byStr20⟩]⟩, ⟨(str! "AcceptPendingOwnership"), []⟩, ⟨(str! "WithdrawTokens"), [⟨(str! "token_address"), .byStr20⟩, ⟨(str! "token_amount"), .uint128⟩]⟩, ⟨(str! "WithdrawZils"), [⟨(str! "zil_amount"), .uint128⟩]⟩, ⟨(str! "Deposit"), [⟨(str! "token_address"), .byStr20⟩, ⟨(str! "token_amount"), .uint128⟩]⟩, ⟨(str! "TransferFromSuccessCallBack"), [⟨(str! "initiator"), .byStr20⟩, ⟨(str! "sender"), .byStr20⟩, ⟨(str! "recipient"), .byStr20⟩, ⟨(str! "amount"), .uint128⟩]⟩, ⟨(str! "TransferSuccessCallBack"), [⟨(str! "sender"), .byStr20⟩, ⟨(str! "recipient"), .byStr20⟩, ⟨(str! "amount"), .uint128⟩]⟩, ⟨(str! "RecipientAcceptTransferFrom"), [⟨(str! "initiator"), .byStr20⟩, ⟨(str! "sender"), .byStr20⟩, ⟨(str! "recipient"), .byStr20⟩, ⟨(str! "amount"), .uint128⟩]⟩, ⟨(str! "AddFunds"), []⟩, ⟨(str! "RecipientAcceptTransfer"), [⟨(str! "sender"), .byStr20⟩, ⟨(str! "recipient"), .byStr20⟩, ⟨(str! "amount"), .uint128⟩]⟩]⟩ := by
  decide +kernel

/-- tests/contracts/ZRC6.scilla -/
def docZRC6 : Str := List.flatten [
  str! "(* SPDX-License-Identifier: MIT *)\n",
  str! "scilla_version 0\n",
  str! "\n",
  str! "(***************************************************)\n",
  str! "(*               Associated library                *)\n",
  str! "(***************************************************)\n",
  str! "import BoolUtils ListUtils IntUtils\n",
  str! "library NonfungibleToken\n",
  str! "\n",
  str! "type Operation =\n",
  str! "| Add\n",
  str! "| Sub\n",
  str! "\n",
  str! "(* Global variables *)\n",
  str! "let zero_address = 0x0000000000000000000000000000000000000000\n",
  str! "let false = False\n",
  str! "let true = True\n",
  str! "let zero = Uint256 0\n",
  str! "let one = Uint256 1\n",
  str! "let empty_string = \"\"\n",
  str! "\n",
  str! "let add_operation = Add\n",
  str! "let sub_operation = Sub\n",
  str! "let min_fee_bps = Uint128 1\n",
  str! "let max_fee_bps = Uint128 10000\n",
  str! "\n",
  str! "(* Library functions *)\n",
  str! "let one_msg = \n",
  str! "  fun (msg: Message) => \n",
  str! "    let nil_msg = Nil {Message} in\n",
  str! "    Cons {Message} msg nil_msg\n",
  str! "\n",
  str! "let two_msgs =\n",
  str! "  fun (msg1: Message) =>\n",
  str! "  fun (msg2: Message) =>\n",
  str! "    let msgs_tmp = one_msg msg2 in\n",
  str! "    Cons {Message} msg1 msgs_tmp\n",
  str! "\n",
  str! "let get_bal =\n",
  str! "  fun (maybe_bal: Option Uint256) =>\n",
  str! "    match maybe_bal with\n",
  str! "    | None => zero\n",
  str! "    | Some bal => bal\n",
  str! "    end\n",
  str! "\n",
  str! "(* Error exception *)\n",
  str! "type Error =\n",
  str! "  | NotPausedError\n",
  str! "  | PausedError\n",
  str! "  | SelfError\n",
  str! "  | NotContractOwnerError\n",
  str! "  | NotContractOwnershipRecipientError\n",
  str! "  | NotTokenOwnerError\n",
  str! "  | NotMinterError\n",
  str! "  | NotOwnerOrOperatorError\n",
  str! "  | MinterNotFoundError\n",
  str! "  | MinterFoundError\n",
  str! "  | SpenderFoundError\n",
  str! "  | OperatorNotFoundError\n",
  str! "  | OperatorFoundError\n",
  str! "  | NotAllowedToTransferError\n",
  str! "  | TokenNotFoundError\n",
  str! "  | InvalidFeeBPSError\n",
  str! "  | ZeroAddressDestinationError\n",
  str! "  | ThisAddressDestinationError\n",
  str! "\n",
  str! "let make_error =\n",
  str! "  fun (result: Error) =>\n",
  str! "    let result_code = \n",
  str! "      match result with\n",
  str! "      | NotPausedError                     => Int32 -1\n",
  str! "      | PausedError                        => Int32 -2\n",
  str! "      | SelfError                          => Int32 -3\n",
  str! "      | NotContractOwnerError              => Int32 -4\n",
  str! "      | NotTokenOwnerError                 => Int32 -5\n",
  str! "      | NotMinterError                     => Int32 -6\n",
  str! "      | NotOwnerOrOperatorError            => Int32 -7\n",
  str! "      | MinterNotFoundError                => Int32 -8\n",
  str! "      | MinterFoundError                   => Int32 -9\n",
  str! "      | SpenderFoundError                  => Int32 -10\n",
  str! "      | OperatorNotFoundError              => Int32 -11\n",
  str! "      | OperatorFoundError                 => Int32 -12\n",
  str! "      | NotAllowedToTransferError          => Int32 -13\n",
  str! "      | TokenNotFoundError                 => Int32 -14\n",
  str! "      | InvalidFeeBPSError                 => Int32 -15\n",
  str! "      | ZeroAddressDestinationError        => Int32 -16\n",
  str! "      | ThisAddressDestinationError        => Int32 -17\n",
  str! "      | NotContractOwnershipRecipientError => Int32 -18\n",
  str! "      end\n",
  str! "    in\n",
  str! "    { _exception: \"Error\"; code: result_code }\n",
  str! "\n",
  str! "(***************************************************)\n",
  str! "(*             The contract definition             *)\n",
  str! "(***************************************************)\n",
  str! "\n",
  str! "contract NonfungibleToken\n",
  str! "(\n",
  str! "  initial_contract_owner: ByStr20,\n",
  str! "  (* Initial Base URI. e.g. `https://creatures-api.zilliqa.com/api/creature/` *)\n",
  str! "  initial_base_uri: String,\n",
  str! "  name: String,\n",
  str! "  symbol: String\n",
  str! ")\n",
  str! "\n",
  str! "(* Contract constraints *)\n",
  str! "with\n",
  str! "  (* `initial_contract_owner` must not be the zero address *)\n",
  str! "  let is_contract_owner_invalid = builtin eq initial_contract_owner zero_address in\n",
  str! "  (* `name` must not be an empty string *)\n",
  str! "  let is_name_invalid = builtin eq name empty_string in\n",
  str! "  (* `symbol` must not be an empty string *)\n",
  str! "  let is_symbol_invalid = builtin eq symbol empty_string in\n",
  str! "  (* Check if any parameter is invalid *)\n",
  str! "  let is_name_or_symbol_invalid = orb is_name_invalid is_symbol_invalid in\n",
  str! "\n",
  str! "  let is_invalid = orb is_contract_owner_invalid is_name_or_symbol_invalid in\n",
  str! "  negb is_invalid\n",
  str! "=>\n",
  str! "\n",
  str! "(* Mutable fields *)\n",
  str! "\n",
  str! "(* Emergency stop mechanism *)\n",
  str! "(* Defaults to False *)\n",
  str! "field is_paused: Bool = false\n",
  str! "\n",
  str! "(* Token Name *)\n",
  str! "(* Defaults to `name` *)\n",
  str! "(* No need to mutate this field since this is for remote fetch to retrieve the immutable parameter. *)\n",
  str! "field token_name: String = name\n",
  str! "\n",
  str! "(* Token Symbol *)\n",
  str! "(* Defaults to `symbol` *)\n",
  str! "(* No need to mutate this field since this is for remote fetch to retrieve the immutable parameter. *)\n",
  str! "field token_symbol: String = symbol\n",
  str! "\n",
  str! "(* Contract Owner *)\n",
  str! "(* Defaults to `initial_contract_owner` *)\n",
  str! "field contract_owner: ByStr20 = initial_contract_owner\n",
  str! "\n",
  str! "(* Contract ownership recipient *)\n",
  str! "(* Defaults to `zero_address` *)\n",
  str! "field contract_ownership_recipient: ByStr20 = zero_address\n",
  str! "\n",
  str! "(* Address to send royalties to *)\n",
  str! "(* Defaults to `initial_contract_owner` *)\n",
  str! "field royalty_recipient: ByStr20 = initial_contract_owner\n",
  str! "\n",
  str! "(* Royalty fee BPS *)\n",
  str! "(* e.g. 1 = 0.01%, 10000 = 100% *)\n",
  str! "(* Defaults to 1000 *)\n",
  str! "field royalty_fee_bps: Uint128 = Uint128 1000\n",
  str! "\n",
  str! "(* Base URI *)\n",
  str! "(* Defaults to `initial_base_uri` *)\n",
  str! "field base_uri: String = initial_base_uri\n",
  str! "\n",
  str! "(* Token URIs *)\n",
  str! "field token_uris: Map Uint256 String = Emp Uint256 String\n",
  str! "\n",
  str! "(* Mapping from token ID to its owner *)\n",
  str! "field token_owners: Map Uint256 ByStr20 = Emp Uint256 ByStr20\n",
  str! "\n",
  str! "(* The total number of tokens minted *)\n",
  str! "field token_id_count: Uint256 = Uint256 0\n",
  str! "\n",
  str! "(* The total number of existing tokens *)\n",
  str! "field total_supply: Uint256 = Uint256 0\n",
  str! "\n",
  str! "(* Mapping from token owner to the number of existing tokens *)\n",
  str! "field balances: Map ByStr20 Uint256 = Emp ByStr20 Uint256\n",
  str! "\n",
  str! "(* Set for minters *)\n",
  str! "(* `initial_contract_owner` is a minter by default *)\n",
  str! "field minters: Map ByStr20 Bool =\n",
  str! "    let emp_map = Emp ByStr20 Bool in\n",
  str! "    builtin put emp_map initial_contract_owner true\n",
  str! "\n",
  str! "(* Mapping from token ID to a spender *)\n",
  str! "field spenders: Map Uint256 ByStr20 = Emp Uint256 ByStr20\n",
  str! "\n",
  str! "(* Mapping from token owner to operators authorized by the token owner *)\n",
  str! "field operators: Map ByStr20 (Map ByStr20 Bool) = Emp ByStr20 (Map ByStr20 Bool)\n",
  str! "\n",
  str! "(* Emit Errors *)\n",
  str! "procedure Throw(error: Error)\n",
  str! "  e = make_error error;\n",
  str! "  throw e\n",
  str! "end\n",
  str! "\n",
  str! "procedure RequireNotPaused()\n",
  str! "  (* Reference: *)\n",
  str! "  (* https://consensys.github.io/smart-contract-best-practices/general_philosophy/#prepare-for-failure *)\n",
  str! "  paused <- is_paused;\n",
  str! "  match paused with\n",
  str! "  | False =>\n",
  str! "  | True =>\n",
  str! "    (* Contract is paused *)\n",
  str! "    error = PausedError;\n",
  str! "    Throw error\n",
  str! "  end\n",
  str! "end\n",
  str! "\n",
  str! "procedure RequireValidRoyaltyFee(fee_bps: Uint128)\n",
  str! "  is_gte_min = uint128_ge fee_bps min_fee_bps;\n",
  str! "  is_lte_max = uint128_le fee_bps max_fee_bps;\n",
  str! "  \n",
  str! "  is_valid = andb is_gte_min is_lte_max;\n",
  str! "  match is_valid with \n",
  str! "    | True => \n",
  str! "    | False =>\n",
  str! "      error = InvalidFeeBPSError;\n",
  str! "      Throw error\n",
  str! "  end\n",
  str! "end\n",
  str! "\n",
  str! "procedure RequireContractOwner()\n",
  str! "  cur_owner <- contract_owner;\n",
  str! "  is_contract_owner = builtin eq cur_owner _sender;\n",
  str! "  match is_contract_owner with\n",
  str! "  | True => \n",
  str! "  | False =>\n",
  str! "    error = NotContractOwnerError;\n",
  str! "    Throw error\n",
  str! "  end\n",
  str! "end\n",
  str! "\n",
  str! "procedure RequireNotSelf(address_a: ByStr20, address_b: ByStr20)\n",
  str! "  is_self = builtin eq address_a address_b;\n",
  str! "  match is_self with\n",
  str! "  | False =>\n",
  str! "  | True =>\n",
  str! "    error = SelfError;\n",
  str! "    Throw error\n",
  str! "  end\n",
  str! "end\n",
  str! "\n",
  str! "procedure RequireExistingToken(token_id: Uint256)\n",
  str! "  has_token <- exists token_owners[token_id];\n",
  str! "  match has_token with\n",
  str! "  | True =>\n",
  str! "  | False =>\n",
  str! "    error = TokenNotFoundError;\n",
  str! "    Throw error\n",
  str! "  end\n",
  str! "end\n",
  str! "\n",
  str! "procedure RequireValidDestination(to: ByStr20)\n",
  str! "  (* Reference: https://github.com/ConsenSys/smart-contract-best-practices/blob/master/docs/tokens.md *)\n",
  str! "  is_zero_address = builtin eq to zero_address;\n",
  str! "  match is_zero_address with\n",
  str! "  | False =>\n",
  str! "  | True =>\n",
  str! "    error = ZeroAddressDestinationError;\n",
  str! "    Throw error\n",
  str! "  end;\n",
  str! "\n",
  str! "  is_this_address = builtin eq to _this_address;\n",
  str! "  match is_this_address with\n",
  str! "  | False =>\n",
  str! "  | True =>\n",
  str! "    error = ThisAddressDestinationError;\n",
  str! "    Throw error\n",
  str! "  end\n",
  str! "end\n",
  str! "\n",
  str! "procedure IsMinter(address: ByStr20)\n",
  str! "  has_minter <- exists minters[address];\n",
  str! "  match has_minter with\n",
  str! "  | True =>\n",
  str! "  | False =>\n",
  str! "    error = NotMinterError;\n",
  str! "    Throw error\n",
  str! "  end\n",
  str! "end\n",
  str! "\n",
  str! "procedure RequireTokenOwner(token_id: Uint256, address: ByStr20)\n",
  str! "  maybe_token_owner <- token_owners[token_id];\n",
  str! "  match maybe_token_owner with\n",
  str! "  | None =>\n",
  str! "    error = TokenNotFoundError;\n",
  str! "    Throw error\n",
  str! "  | Some addr => \n",
  str! "    is_token_owner = builtin eq addr address;\n",
  str! "    match is_token_owner with\n",
  str! "    | True =>\n",
  str! "    | False =>\n",
  str! "      error = NotTokenOwnerError;\n",
  str! "      Throw error\n",
  str! "    end\n",
  str! "  end\n",
  str! "end\n",
  str! "\n",
  str! "procedure RequireOwnerOrOperator(address: ByStr20)\n",
  str! "  is_owner = builtin eq _sender address;\n",
  str! "  has_operator <- exists operators[address][_sender];\n",
  str! "  is_allowed = orb is_owner has_operator;\n",
  str! "  match is_allowed with\n",
  str! "  | True =>\n",
  str! "  | False =>\n",
  str! "    error = NotOwnerOrOperatorError;\n",
  str! "    Throw error\n",
  str! "  end\n",
  str! "end\n",
  str! "\n",
  str! "procedure RequireAccessToTransfer(token_owner: ByStr20, token_id: Uint256)  \n",
  str! "  (* check if _sender is token owner *)\n",
  str! "  is_token_owner = builtin eq token_owner _sender;\n",
  str! "  \n",
  str! "  (* check if _sender is spender *)\n",
  str! "  maybe_spender <- spenders[token_id];\n",
  str! "  is_spender = match maybe_spender with\n",
  str! "    | None => False\n",
  str! "    | Some spender => \n",
  str! "      builtin eq spender _sender\n",
  str! "    end;\n",
  str! "\n",
  str! "  (* check if _sender is operator *)\n",
  str! "  is_operator <- exists operators[token_owner][_sender];\n",
  str! "  \n",
  str! "  is_spender_or_operator = orb is_spender is_operator;\n",
  str! "  is_allowed = orb is_spender_or_operator is_token_owner;\n",
  str! "  match is_allowed with\n",
  str! "  | True =>\n",
  str! "  | False =>\n",
  str! "    error = NotAllowedToTransferError;\n",
  str! "    Throw error\n",
  str! "  end\n",
  str! "end\n",
  str! "\n",
  str! "procedure UpdateBalance(operation: Operation, address: ByStr20)\n",
  str! "  match operation with\n",
  str! "  | Add =>\n",
  str! "    maybe_count <- balances[address];\n",
  str! "    new_count = \n",
  str! "      let cur_count = get_bal maybe_count in\n",
  str! "      (* if overflow occurs, it throws CALL_CONTRACT_FAILED *)\n",
  str! "      builtin add cur_count one;\n",
  str! "    balances[address] := new_count\n",
  str! "  | Sub =>\n",
  str! "    maybe_count <- balances[address];\n",
  str! "    new_count = \n",
  str! "      let cur_count = get_bal maybe_count in\n",
  str! "      (* if underflow occurs, it throws CALL_CONTRACT_FAILED *)\n",
  str! "      builtin sub cur_count one;\n",
  str! "    balances[address] := new_count\n",
  str! "  end\n",
  str! "end\n",
  str! "\n",
  str! "(* @Requirements: *)\n",
  str! "(* - `to` must not be the zero address. Otherwise, it must throw `ZeroAddressDestinationError` *)\n",
  str! "(* - `to` must not be `_this_address`. Otherwise, it must throw `ThisAddressDestinationError` *)\n",
  str! "(* - `_sender` must be a minter. Otherwise, it must throw `NotMinterError` *)\n",
  str! "procedure MintToken(to: ByStr20)\n",
  str! "  RequireValidDestination to;\n",
  str! "\n",
  str! "  IsMinter _sender;\n",
  str! "\n",
  str! "  (* generate ID *)\n",
  str! "  current_token_id_count <- token_id_count;\n",
  str! "  new_token_id_count = builtin add current_token_id_count one;\n",
  str! "  token_id_count := new_token_id_count;\n",
  str! "  token_id = new_token_id_count;\n",
  str! "\n",
  str! "  (* mint a new token *)\n",
  str! "  token_owners[token_id] := to;\n",
  str! "\n",
  str! "  (* add one to the token owner balance *)\n",
  str! "  UpdateBalance add_operation to;\n",
  str! "  \n",
  str! "  (* add one to the total supply *)\n",
  str! "  current_supply <- total_supply;\n",
  str! "  new_supply = builtin add current_supply one;\n",
  str! "  total_supply := new_supply\n",
  str! "end\n",
  str! "\n",
  str! "procedure SetTokenURI(token_id: Uint256, token_uri: String)\n",
  str! "  is_empty_string = builtin eq token_uri empty_string;\n",
  str! "  match is_empty_string with \n",
  str! "  | True => \n",
  str! "    (* noop *)\n",
  str! "  | False =>\n",
  str! "    token_uris[token_id] := token_uri\n",
  str! "  end\n",
  str! "end\n",
  str! "\n",
  str! "procedure HandleMint(info: Pair ByStr20 String)\n",
  str! "  match info with\n",
  str! "  | Pair to token_uri =>\n",
  str! "    MintToken to;\n",
  str! "    token_id <- token_id_count;\n",
  str! "    SetTokenURI token_id token_uri\n",
  str! "  end\n",
  str! "end\n",
  str! "\n",
  str! "(* @Requirements: *)\n",
  str! "(* - `token_id` must exist. Otherwise, it must throw `TokenNotFoundError` *)\n",
  str! "(* - `_sender` must be a token owner or an operator. Otherwise, it must throw `NotOwnerOrOperatorError` *)\n",
  str! "procedure BurnToken(token_id: Uint256)\n",
  str! "  (* Check if token exists *)\n",
  str! "  maybe_token_owner <- token_owners[token_id];\n",
  str! "  match maybe_token_owner with\n",
  str! "  | None =>\n",
  str! "    error = TokenNotFoundError;\n",
  str! "    Throw error\n",
  str! "  | Some token_owner =>\n",
  str! "    RequireOwnerOrOperator token_owner;\n",
  str! "    (* Destroy existing token *)\n",
  str! "    delete token_owners[token_id];\n",
  str! "    delete spenders[token_id];\n",
  str! "\n",
  str! "    (* subtract one from the balance *)\n",
  str! "    UpdateBalance sub_operation token_owner;\n",
  str! "    (* subtract one from the total supply *)\n",
  str! "    current_supply <- total_supply;\n",
  str! "    new_supply = builtin sub current_supply one;\n",
  str! "    total_supply := new_supply\n",
  str! "  end\n",
  str! "end\n",
  str! "\n",
  str! "(* @Requirements: *)\n",
  str! "(* - `to` must not be the zero address. Otherwise, it must throw `ZeroAddressDestinationError` *)\n",
  str! "(* - `to` must not be `_this_address`. Otherwise, it must throw `ThisAddressDestinationError` *)\n",
  str! "(* - `token_id` must exist. Otherwise, it must throw `TokenNotFoundError` *)\n",
  str! "(* - `_sender` must be a token owner, spender, or operator. Otherwise, it must throw `NotAllowedToTransferError` *)\n",
  str! "(* - `_sender` must not be `to`. Otherwise, it must throw `SelfError` *)\n",
  str! "procedure TransferToken(to: ByStr20, token_id: Uint256)\n",
  str! "  RequireValidDestination to;\n",
  str! "\n",
  str! "  maybe_token_owner <- token_owners[token_id];\n",
  str! "  match maybe_token_owner with\n",
  str! "  | None =>\n",
  str! "    error = TokenNotFoundError;\n",
  str! "    Throw error\n",
  str! "  | Some token_owner =>\n",
  str! "    RequireAccessToTransfer token_owner token_id;\n",
  str! "    RequireNotSelf token_owner to;\n",
  str! "    \n",
  str! "    (* change token_owner for that token_id *)\n",
  str! "    token_owners[token_id] := to;\n",
  str! "\n",
  str! "    delete spenders[token_id];\n",
  str! "\n",
  str! "    (* subtract one from previous token owner balance *)\n",
  str! "    UpdateBalance sub_operation token_owner;\n",
  str! "    (* add one to the new token owner balance *)\n",
  str! "    UpdateBalance add_operation to\n",
  str! "  end\n",
  str! "end\n",
  str! "\n",
  str! "procedure HandleTransfer(info: Pair ByStr20 Uint256)\n",
  str! "  match info with\n",
  str! "  | Pair to token_id =>\n",
  str! "    TransferToken to token_id\n",
  str! "  end\n",
  str! "end\n",
  str! "\n",
  str! "(* Pauses the contract. Use this when things are going wrong ('circuit breaker'). *)\n",
  str! "(* @Requirements: *)\n",
  str! "(* - The contract must not be paused. Otherwise, it must throw `PausedError` *)\n",
  str! "(* - `_sender` must be the contract owner. Otherwise, it must throw `NotContractOwnerError` *)\n",
  str! "transition Pause()\n",
  str! "  RequireNotPaused;\n",
  str! "  RequireContractOwner;\n",
  str! "\n",
  str! "  is_paused := true;\n",
  str! "  e = {\n",
  str! "    _eventname: \"Pause\";\n",
  str! "    is_paused: true\n",
  str! "  };\n",
  str! "  event e;\n",
  str! "  msg_to_sender = {\n",
  str! "    _tag: \"ZRC6_PauseCallback\";\n",
  str! "    _recipient: _sender;\n",
  str! "    _amount: Uint128 0;\n",
  str! "    is_paused: true\n",
  str! "  };\n",
  str! "  msgs = one_msg msg_to_sender;\n",
  str! "  send msgs\n",
  str! "end\n",
  str! "\n",
  str! "(* Unpauses the contract. *)\n",
  str! "(* @Requirements: *)\n",
  str! "(* - The contract must be paused. Otherwise, it must throw `NotPausedError` *)\n",
  str! "(* - `_sender` must be the contract owner. Otherwise, it must throw `NotContractOwnerError` *)\n",
  str! "transition Unpause()\n",
  str! "  paused <- is_paused;\n",
  str! "  match paused with\n",
  str! "  | True =>\n",
  str! "  | False =>\n",
  str! "    error = NotPausedError;\n",
  str! "    Throw error\n",
  str! "  end;\n",
  str! "  RequireContractOwner;\n",
  str! "\n",
  str! "  is_paused := false;\n",
  str! "  e = {\n",
  str! "    _eventname: \"Unpause\";\n",
  str! "    is_paused: false\n",
  str! "  };\n",
  str! "  event e;\n",
  str! "  msg_to_sender = {\n",
  str! "    _tag: \"ZRC6_UnpauseCallback\";\n",
  str! "    _recipient: _sender;\n",
  str! "    _amount: Uint128 0;\n",
  str! "    is_paused: false\n",
  str! "  };\n",
  str! "  msgs = one_msg msg_to_sender;\n",
  str! "  send msgs\n",
  str! "end\n",
  str! "\n",
  str! "(* Sets `to` as the royalty recipient. *)\n",
  str! "(* @param: to - Royalty recipient address  *)\n",
  str! "(* @Requirements: *)\n",
  str! "(* - `_sender` must be the contract owner. Otherwise, it must throw `NotContractOwnerError` *)\n",
  str! "(* - `to` must not be the zero address. Otherwise, it must throw `ZeroAddressDestinationError` *)\n",
  str! "(* - `to` must not be `_this_address`. Otherwise, it must throw `ThisAddressDestinationError` *)\n",
  str! "transition SetRoyaltyRecipient(to: ByStr20)\n",
  str! "  RequireContractOwner;\n",
  str! "  RequireValidDestination to;\n",
  str! "  \n",
  str! "  royalty_recipient := to;\n",
  str! "  \n",
  str! "  e = { \n",
  str! "    _eventname: \"SetRoyaltyRecipient\";\n",
  str! "    to: to\n",
  str! "  };\n",
  str! "  event e;\n",
  str! "  msg_to_sender = {\n",
  str! "    _tag: \"ZRC6_SetRoyaltyRecipientCallback\"; \n",
  str! "    _recipient: _sender;\n",
  str! "    _amount: Uint128 0;\n",
  str! "    to: to\n",
  str! "  };\n",
  str! "  msgs = one_msg msg_to_sender;\n",
  str! "  send msgs  \n",
  str! "end\n",
  str! "\n",
  str! "(* Sets `fee_bps` as royalty fee bps. *)\n",
  str! "(* @param: fee_bps - Royalty fee BPS *)\n",
  str! "(* @Requirements: *)\n",
  str! "(* - `_sender` must be the contract owner. Otherwise, it must throw `NotContractOwnerError` *)\n",
  str! "(* - `fee_bps` must be in the range of 1 and 10000. Otherwise, it must throw `InvalidFeeBPSError` *)\n",
  str! "transition SetRoyaltyFeeBPS(fee_bps: Uint128)\n",
  str! "  RequireContractOwner;\n",
  str! "  RequireValidRoyaltyFee fee_bps;\n",
  str! "  royalty_fee_bps := fee_bps;\n",
  str! "  \n",
  str! "  e = { \n",
  str! "    _eventname: \"SetRoyaltyFeeBPS\";\n",
  str! "    royalty_fee_bps: fee_bps\n",
  str! "  };\n",
  str! "  event e;\n",
  str! "  msg_to_sender = {\n",
  str! "    _tag: \"ZRC6_SetRoyaltyFeeBPSCallback\"; \n",
  str! "    _recipient: _sender;\n",
  str! "    _amount: Uint128 0;\n",
  str! "    royalty_fee_bps: fee_bps\n",
  str! "  };\n",
  str! "  msgs = one_msg msg_to_sender;\n",
  str! "  send msgs\n",
  str! "end\n",
  str! "\n",
  str! "(* Sets `uri` as the base URI. *)\n",
  str! "(* @Requirements: *)\n",
  str! "(* - `_sender` must be the contract owner. Otherwise, it must throw `NotContractOwnerError` *)\n",
  str! "transition SetBaseURI(uri: String)\n",
  str! "  RequireContractOwner;\n",
  str! "  base_uri := uri;\n",
  str! "\n",
  str! "  e = { \n",
  str! "    _eventname: \"SetBaseURI\";\n",
  str! "    base_uri: uri\n",
  str! "  };\n",
  str! "  event e;\n",
  str! "  msg_to_sender = {\n",
  str! "    _tag: \"ZRC6_SetBaseURICallback\"; \n",
  str! "    _recipient: _sender;\n",
  str! "    _amount: Uint128 0;\n",
  str! "    base_uri: uri\n",
  str! "  };\n",
  str! "  msgs = one_msg msg_to_sender;\n",
  str! "  send msgs  \n",
  str! "end\n",
  str! "\n",
  str! "(* Mints a token with a specific `token_uri` and transfers it to `to`. *)\n",
  str! "(* Pass empty string to `token_uri` to use the concatenated token URI. i.e. `<base_uri><token_id>`. *)\n",
  str! "(* @param: to - Address of the token recipient *)\n",
  str! "(* @param: token_uri - URI of a token *)\n",
  str! "(* @Requirements: *)\n",
  str! "(* - The contract must not be paused. Otherwise, it must throw `PausedError` *)\n",
  str! "transition Mint(to: ByStr20, token_uri: String)\n",
  str! "  RequireNotPaused;\n",
  str! "  MintToken to;\n",
  str! "  token_id <- token_id_count;\n",
  str! "  SetTokenURI token_id token_uri;\n",
  str! "\n",
  str! "  e = {\n",
  str! "    _eventname: \"Mint\";\n",
  str! "    to: to;\n",
  str! "    token_id: token_id;\n",
  str! "    token_uri: token_uri\n",
  str! "  };\n",
  str! "  event e;\n",
  str! "  msg_to_recipient = {\n",
  str! "    _tag: \"ZRC6_RecipientAcceptMint\";\n",
  str! "    _recipient: to;\n",
  str! "    _amount: Uint128 0\n",
  str! "  };\n",
  str! "  msg_to_sender = {\n",
  str! "    _tag: \"ZRC6_MintCallback\";\n",
  str! "    _recipient: _sender;\n",
  str! "    _amount: Uint128 0;\n",
  str! "    to: to;\n",
  str! "    token_id: token_id;\n",
  str! "    token_uri: token_uri\n",
  str! "  };\n",
  str! "  msgs = two_msgs msg_to_recipient msg_to_sender;\n",
  str! "  send msgs\n",
  str! "end\n",
  str! "\n",
  str! "(* Mints multiple tokens with `token_uri`s and transfers them to multiple `to`s. *)\n",
  str! "(* Pass empty string to `token_uri` to use the concatenated token URI. i.e. `<base_uri><token_id>`. *)\n",
  str! "(* @param: to_token_uri_pair_list - List of Pair (to, token_uri). *)\n",
  str! "(* @Requirements: *)\n",
  str! "(* - The contract must not be paused. Otherwise, it must throw `PausedError` *)\n",
  str! "transition BatchMint(to_token_uri_pair_list: List (Pair ByStr20 String))\n",
  str! "  RequireNotPaused;\n",
  str! "  cur_id <- token_id_count;\n",
  str! "  start_id = builtin add cur_id one;\n",
  str! "  forall to_token_uri_pair_list HandleMint;\n",
  str! "  end_id <- token_id_count;\n",
  str! "  e = {\n",
  str! "    _eventname: \"BatchMint\";\n",
  str! "    to_token_uri_pair_list: to_token_uri_pair_list;\n",
  str! "    start_id: start_id;\n",
  str! "    end_id: end_id\n",
  str! "  };\n",
  str! "  event e;\n",
  str! "  msg_to_sender = {\n",
  str! "    _tag: \"ZRC6_BatchMintCallback\";\n",
  str! "    _recipient: _sender;\n",
  str! "    _amount: Uint128 0\n",
  str! "  };\n",
  str! "  msgs = one_msg msg_to_sender;\n",
  str! "  send msgs\n",
  str! "end\n",
  str! "\n",
  str! "(* Destroys `token_id`. *)\n",
  str! "(* @param: token_id - Unique ID of the NFT to be destroyed *)\n",
  str! "(* @Requirements: *)\n",
  str! "(* - The contract must not be paused. Otherwise, it must throw `PausedError` *)\n",
  str! "transition Burn(token_id: Uint256)\n",
  str! "  RequireNotPaused;\n",
  str! "  (* Check if token exists *)\n",
  str! "  maybe_token_owner <- token_owners[token_id];\n",
  str! "  match maybe_token_owner with\n",
  str! "  | None =>\n",
  str! "    error = TokenNotFoundError;\n",
  str! "    Throw error\n",
  str! "  | Some token_owner =>\n",
  str! "    BurnToken token_id;\n",
  str! "    e = {\n",
  str! "      _eventname: \"Burn\";\n",
  str! "      token_owner: token_owner;\n",
  str! "      token_id: token_id\n",
  str! "    };\n",
  str! "    event e;\n",
  str! "    msg_to_sender = {\n",
  str! "      _tag: \"ZRC6_BurnCallback\";\n",
  str! "      _recipient: _sender;\n",
  str! "      _amount: Uint128 0;\n",
  str! "      token_owner: token_owner;\n",
  str! "      token_id: token_id\n",
  str! "    };\n",
  str! "    msgs = one_msg msg_to_sender;\n",
  str! "    send msgs\n",
  str! "  end\n",
  str! "end\n",
  str! "\n",
  str! "(* Destroys `token_id_list`. *)\n",
  str! "(* @param: token_id_list - List of unique IDs of the NFT to be destroyed *)\n",
  str! "(* @Requirements: *)\n",
  str! "(* - The contract must not be paused. Otherwise, it must throw `PausedError` *)\n",
  str! "transition BatchBurn(token_id_list: List Uint256)\n",
  str! "  RequireNotPaused;\n",
  str! "  forall token_id_list BurnToken;\n",
  str! "  e = {\n",
  str! "    _eventname: \"BatchBurn\";\n",
  str! "    token_id_list: token_id_list\n",
  str! "  };\n",
  str! "  event e;\n",
  str! "  msg_to_sender = {\n",
  str! "    _tag: \"ZRC6_BatchBurnCallback\";\n",
  str! "    _recipient: _sender;\n",
  str! "    _amount: Uint128 0\n",
  str! "  };\n",
  str! "  msgs = one_msg msg_to_sender;\n",
  str! "  send msgs\n",
  str! "end\n",
  str! "\n",
  str! "(* Adds `minter`. *)\n",
  str! "(* @Requirements: *)\n",
  str! "(* - `_sender` must be the contract owner. Otherwise, it must throw `NotContractOwnerError` *)\n",
  str! "(* - `minter` must not be already a minter. Otherwise, it must throw `MinterFoundError` *)\n",
  str! "transition AddMinter(minter: ByStr20)\n",
  str! "  RequireContractOwner;\n",
  str! "  has_minter <- exists minters[minter];\n",
  str! "  match has_minter with\n",
  str! "  | True => \n",
  str! "    error = MinterFoundError;\n",
  str! "    Throw error\n",
  str! "  | False =>\n",
  str! "    (* Add minter *)\n",
  str! "    minters[minter] := true\n",
  str! "  end;\n",
  str! "  e = { \n",
  str! "    _eventname: \"AddMinter\";\n",
  str! "    minter: minter\n",
  str! "  };\n",
  str! "  event e;\n",
  str! "  msg_to_sender = {\n",
  str! "    _tag: \"ZRC6_AddMinterCallback\";\n",
  str! "    _recipient: _sender;\n",
  str! "    _amount: Uint128 0;\n",
  str! "    minter: minter\n",
  str! "  };\n",
  str! "  msgs = one_msg msg_to_sender;\n",
  str! "  send msgs\n",
  str! "end\n",
  str! "\n",
  str! "(* Removes `minter`. *)\n",
  str! "(* @Requirements: *)\n",
  str! "(* - `_sender` must be the contract owner. Otherwise, it must throw `NotContractOwnerError` *)\n",
  str! "(* - `minter` must be already a minter. Otherwise, it must throw `MinterNotFoundError` *)\n",
  str! "transition RemoveMinter(minter: ByStr20)\n",
  str! "  RequireContractOwner;\n",
  str! "  has_minter <- exists minters[minter];\n",
  str! "  match has_minter with\n",
  str! "  | False =>\n",
  str! "    error = MinterNotFoundError;\n",
  str! "    Throw error\n",
  str! "  | True => \n",
  str! "    delete minters[minter]\n",
  str! "  end;\n",
  str! "  e = { \n",
  str! "    _eventname: \"RemoveMinter\";\n",
  str! "    minter: minter\n",
  str! "  };\n",
  str! "  event e;\n",
  str! "  msg_to_sender = {\n",
  str! "    _tag: \"ZRC6_RemoveMinterCallback\";\n",
  str! "    _recipient: _sender;\n",
  str! "    _amount: Uint128 0;\n",
  str! "    minter: minter\n",
  str! "  };\n",
  str! "  msgs = one_msg msg_to_sender;\n",
  str! "  send msgs\n",
  str! "end\n",
  str! "\n",
  str! "(* Sets `spender` for `token_id`. *)\n",
  str! "(* To remove `spender` for a token, use `zero_address`. *)\n",
  str! "(* i.e., `0x0000000000000000000000000000000000000000` *)\n",
  str! "(* @Requirements: *)\n",
  str! "(* - `token_id` must exist. Otherwise, it must throw `TokenNotFoundError` *)\n",
  str! "(* - `_sender` must be a token owner or an operator. Otherwise, it must throw `NotOwnerOrOperatorError` *)\n",
  str! "(* - `_sender` must not be `spender`. Otherwise, it must throw `SelfError` *)\n",
  str! "(* - `spender` must not be already a spender. Otherwise, it must throw `SpenderFoundError` *)\n",
  str! "transition SetSpender(spender: ByStr20, token_id: Uint256)\n",
  str! "  RequireNotSelf spender _sender;\n",
  str! "  \n",
  str! "  maybe_token_owner <- token_owners[token_id];\n",
  str! "  match maybe_token_owner with\n",
  str! "  | None =>\n",
  str! "    error = TokenNotFoundError;\n",
  str! "    Throw error\n",
  str! "  | Some token_owner =>\n",
  str! "    RequireOwnerOrOperator token_owner;\n",
  str! "    \n",
  str! "    (* Check if the spender exists *)\n",
  str! "    maybe_spender <- spenders[token_id];\n",
  str! "    match maybe_spender with\n",
  str! "      | None =>\n",
  str! "      | Some cur_spender =>\n",
  str! "        has_spender = builtin eq cur_spender spender;\n",
  str! "        match has_spender with \n",
  str! "        | False =>\n",
  str! "        | True => \n",
  str! "          error = SpenderFoundError;\n",
  str! "          Throw error\n",
  str! "        end\n",
  str! "    end;\n",
  str! "      \n",
  str! "    spenders[token_id] := spender;\n",
  str! "\n",
  str! "    e = {\n",
  str! "      _eventname: \"SetSpender\";\n",
  str! "      spender: spender;\n",
  str! "      token_id: token_id\n",
  str! "    };\n",
  str! "    event e;\n",
  str! "    msg_to_sender = {\n",
  str! "      _tag: \"ZRC6_SetSpenderCallback\";\n",
  str! "      _recipient: _sender;\n",
  str! "      _amount: Uint128 0;\n",
  str! "      spender: spender;\n",
  str! "      token_id: token_id\n",
  str! "    };\n",
  str! "    msgs = one_msg msg_to_sender;\n",
  str! "    send msgs\n",
  str! "  end\n",
  str! "end\n",
  str! "\n",
  str! "(* Adds `operator` for `_sender`. *)\n",
  str! "(* @Requirements: *)\n",
  str! "(* - `_sender` must be the token owner. Otherwise, it must throw `NotTokenOwnerError` *)\n",
  str! "(* - `_sender` must not be `operator`. Otherwise, it must throw `SelfError` *)\n",
  str! "(* - `operator` must not be already an operator. Otherwise, it must throw `OperatorFoundError` *)\n",
  str! "transition AddOperator(operator: ByStr20)\n",
  str! "  RequireNotSelf operator _sender;\n",
  str! "  \n",
  str! "  maybe_bal <- balances[_sender];\n",
  str! "  balance = get_bal maybe_bal;\n",
  str! "  \n",
  str! "  is_balance_zero = builtin eq zero balance;\n",
  str! "  (* _sender must have at least 1 token *)\n",
  str! "  match is_balance_zero with \n",
  str! "  | True =>    \n",
  str! "    error = NotTokenOwnerError;\n",
  str! "    Throw error\n",
  str! "  | False =>\n",
  str! "    has_operator <- exists operators[_sender][operator];\n",
  str! "    match has_operator with\n",
  str! "    | False =>\n",
  str! "      (* Add operator *)\n",
  str! "      operators[_sender][operator] := true\n",
  str! "    | True =>\n",
  str! "      error = OperatorFoundError;\n",
  str! "      Throw error\n",
  str! "    end;\n",
  str! "    e = {\n",
  str! "      _eventname: \"AddOperator\";\n",
  str! "      operator: operator\n",
  str! "    };\n",
  str! "    event e;\n",
  str! "    msg_to_sender = {\n",
  str! "      _tag: \"ZRC6_AddOperatorCallback\";\n",
  str! "      _recipient: _sender;\n",
  str! "      _amount: Uint128 0;\n",
  str! "      operator: operator\n",
  str! "    };\n",
  str! "    msgs = one_msg msg_to_sender;\n",
  str! "    send msgs\n",
  str! "  end\n",
  str! "end\n",
  str! "\n",
  str! "(* Removes `operator` for `_sender`. *)\n",
  str! "(* @Requirements:  *)\n",
  str! "(* - `operator` must be already an operator of `_sender`. Otherwise, it must throw `OperatorNotFoundError` *)\n",
  str! "transition RemoveOperator(operator: ByStr20)\n",
  str! "  has_operator <- exists operators[_sender][operator];\n",
  str! "  match has_operator with\n",
  str! "  | False =>\n",
  str! "    error = OperatorNotFoundError;\n",
  str! "    Throw error\n",
  str! "  | True =>\n",
  str! "    (* Remove operator *)\n",
  str! "    delete operators[_sender][operator]\n",
  str! "  end;\n",
  str! "  e = {\n",
  str! "    _eventname: \"RemoveOperator\";\n",
  str! "    operator: operator\n",
  str! "  };\n",
  str! "  event e;\n",
  str! "  msg_to_sender = {\n",
  str! "    _tag: \"ZRC6_RemoveOperatorCallback\";\n",
  str! "    _recipient: _sender;\n",
  str! "    _amount: Uint128 0;\n",
  str! "    operator: operator\n",
  str! "  };\n",
  str! "  msgs = one_msg msg_to_sender;\n",
  str! "  send msgs\n",
  str! "end\n",
  str! "\n",
  str! "(* Transfers `token_id` from the token owner to `to`.  *)\n",
  str! "(* @Requirements: *)\n",
  str! "(* - The contract must not be paused. Otherwise, it must throw `PausedError` *)\n",
  str! "transition TransferFrom(to: ByStr20, token_id: Uint256)\n",
  str! "  RequireNotPaused;\n",
  str! "  maybe_token_owner <- token_owners[token_id];\n",
  str! "  match maybe_token_owner with\n",
  str! "  | None =>\n",
  str! "    error = TokenNotFoundError;\n",
  str! "    Throw error\n",
  str! "  | Some token_owner =>\n",
  str! "    TransferToken to token_id;\n",
  str! "    e = {\n",
  str! "      _eventname: \"TransferFrom\"; \n",
  str! "      from: token_owner;\n",
  str! "      to: to;\n",
  str! "      token_id: token_id\n",
  str! "    };\n",
  str! "    event e;\n",
  str! "    msg_to_recipient = {\n",
  str! "      _tag: \"ZRC6_RecipientAcceptTransferFrom\";\n",
  str! "      _recipient: to;\n",
  str! "      _amount: Uint128 0;\n",
  str! "      from: token_owner;\n",
  str! "      to: to;\n",
  str! "      token_id: token_id\n",
  str! "    };\n",
  str! "    msg_to_sender = {\n",
  str! "      _tag: \"ZRC6_TransferFromCallback\";\n",
  str! "      _recipient: _sender;\n",
  str! "      _amount: Uint128 0;\n",
  str! "      from: token_owner;\n",
  str! "      to: to;\n",
  str! "      token_id: token_id\n",
  str! "    };\n",
  str! "    msgs = two_msgs msg_to_recipient msg_to_sender;\n",
  str! "    send msgs\n",
  str! "  end\n",
  str! "end\n",
  str! "\n",
  str! "(* Transfers multiple `token_id` to multiple `to`. *)\n",
  str! "(* @param: to_token_id_pair_list - List of Pair (to, token_id). *)\n",
  str! "(* @Requirements: *)\n",
  str! "(* - The contract must not be paused. Otherwise, it must throw `PausedError` *)\n",
  str! "transition BatchTransferFrom(to_token_id_pair_list: List (Pair ByStr20 Uint256))\n",
  str! "  RequireNotPaused;\n",
  str! "  forall to_token_id_pair_list HandleTransfer;\n",
  str! "  e = {\n",
  str! "    _eventname: \"BatchTransferFrom\"; \n",
  str! "    to_token_id_pair_list: to_token_id_pair_list\n",
  str! "  };\n",
  str! "  event e;\n",
  str! "  msg_to_sender = {\n",
  str! "    _tag: \"ZRC6_BatchTransferFromCallback\";\n",
  str! "    _recipient: _sender;\n",
  str! "    _amount: Uint128 0\n",
  str! "  };\n",
  str! "  msgs = one_msg msg_to_sender;\n",
  str! "  send msgs\n",
  str! "end\n",
  str! "\n",
  str! "(* Sets `to` as the contract ownership recipient. *)\n",
  str! "(* To reset `contract_ownership_recipient`, use `zero_address`. *)\n",
  str! "(* i.e., `0x0000000000000000000000000000000000000000` *)\n",
  str! "(* @param: to - Address of contract ownership recipient *)\n",
  str! "(* @Requirements: *)\n",
  str! "(* - `_sender` must be the contract owner. Otherwise, it must throw `NotContractOwnerError` *)\n",
  str! "(* - `_sender` must not be `to`. Otherwise, it must throw `SelfError` *)\n",
  str! "transition SetContractOwnershipRecipient(to: ByStr20)\n",
  str! "  RequireContractOwner;\n",
  str! "  RequireNotSelf to _sender;\n",
  str! "  \n",
  str! "  contract_ownership_recipient := to;\n",
  str! "\n",
  str! "  e = {\n",
  str! "    _eventname: \"SetContractOwnershipRecipient\";\n",
  str! "    to: to\n",
  str! "  };\n",
  str! "  event e;\n",
  str! "  msg_to_sender = {\n",
  str! "    _tag: \"ZRC6_SetContractOwnershipRecipientCallback\";\n",
  str! "    _recipient: _sender;\n",
  str! "    _amount: Uint128 0;\n",
  str! "    to: to\n",
  str! "  };\n",
  str! "  msgs = one_msg msg_to_sender;\n",
  str! "  send msgs\n",
  str! "end\n",
  str! "\n",
  str! "(* Sets `contract_ownership_recipient` as the contract owner. *)\n",
  str! "(* @Requirements: *)\n",
  str! "(* - `_sender` must be the contract ownership recipient. Otherwise, it must throw `NotContractOwnershipRecipientError` *)\n",
  str! "transition AcceptContractOwnership()\n",
  str! "  recipient <- contract_ownership_recipient;\n",
  str! "\n",
  str! "  is_recipient = builtin eq _sender recipient;\n",
  str! "  match is_recipient with\n",
  str! "  | False =>\n",
  str! "    error = NotContractOwnershipRecipientError;\n",
  str! "    Throw error\n",
  str! "  | True =>\n",
  str! "    contract_owner := _sender;\n",
  str! "    contract_ownership_recipient := zero_address;\n",
  str! "\n",
  str! "    e = {\n",
  str! "      _eventname: \"AcceptContractOwnership\";\n",
  str! "      contract_owner: _sender\n",
  str! "    };\n",
  str! "    event e;\n",
  str! "    msg_to_sender = {\n",
  str! "      _tag: \"ZRC6_AcceptContractOwnershipCallback\";\n",
  str! "      _recipient: _sender;\n",
  str! "      _amount: Uint128 0;\n",
  str! "      contract_owner: _sender\n",
  str! "    };\n",
  str! "    msgs = one_msg msg_to_sender;\n",
  str! "    send msgs\n",
  str! "  end\n",
  str! "end\n"]

/-- full_contract_tests.rs, test_parse: it must be accepted -/
example : (fromStr demoEnv docZRC6).isOk = true := by
  decide +kernel

end Verif
