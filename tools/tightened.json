{
 "E5": {
  "tightened": [
   "c64_no_preference_adapts",
   "c64_noninteractive_adapts"
  ],
  "note": "survived; new property C64 added, re-run as E5b"
 },
 "E8": {
  "tightened": [
   "c64_preference_in_force",
   "c64_problem_preference"
  ],
  "note": "survived; new property C64 added, re-run as E8b"
 },
 "R19": {
  "tightened": [
   "c71_angle_to_nearest_other"
  ],
  "note": "survived; new property C71 added, re-run as R19b"
 },
 "A8": {
  "tightened": [
   "c70_rvea_selection_types",
   "c70_nsga_selection_types"
  ],
  "note": "survived; new property C70 added, re-run as A8b"
 },
 "E16": {
  "tightened": [
   "c15_valid_type_starts"
  ],
  "note": "only examples failed; theorem added, re-run as E16b"
 },
 "E20": {
  "tightened": [
   "c07_archive_of_a_run"
  ],
  "note": "only a helper failed; theorem added, re-run as E20b"
 },
 "E22": {
  "tightened": [
   "c62_*",
   "c63_*"
  ],
  "note": "only examples failed; whole-run theorems added, re-run as E22b"
 },
 "I17": {
  "tightened": [
   "c12_indicator_given_population"
  ],
  "note": "survived; theorem added, re-run in batch 5"
 },
 "G34": {
  "tightened": [
   "c55_hunt_turns"
  ],
  "note": "survived; theorem added, re-run in batch 5"
 },
 "G1": {
  "note": "survived: negative positions are never read in a consistent lattice (c48_*), so no claim is broken"
 },
 "V13": {
  "note": "equivalent mutant: the edited definition computes the same"
 },
 "W22": {
  "tightened": [
   "c72_iopis_ea_construct"
  ],
  "note": "only an example failed; theorem added, re-run as W22b"
 },
 "W23": {
  "tightened": [
   "c72_iopis_request_answered"
  ],
  "note": "only an example failed; theorem added, re-run as W23b"
 },
 "I17b": {
  "note": "ill-typed edit; re-run as I17c"
 },
 "11B9": {
  "tightened": [
   "c86_v2_empty"
  ],
  "note": "survived; theorem added"
 },
 "11A9": {
  "note": "survived: the edited constant is overwritten before it is read, so no claim is broken"
 },
 "12A6": {
  "note": "survived: a boundary of measure zero; every kind of crossover is covered by the theorems whichever draw selects it"
 },
 "12C9": {
  "tightened": [
   "c87_untrained"
  ],
  "note": "survived; theorem added, re-run in batch 13"
 },
 "15F2": {
  "tightened": [
   "c14_class_belongs_to_the_name"
  ],
  "note": "no theorem said which class belongs to which interaction type by name; added one with its own table"
 },
 "16B4": {
  "tightened": [
   "c61_latest_preference_in_force"
  ],
  "note": "no theorem followed the preference through a history of calls; added one"
 },
 "16I1": {
  "tightened": [],
  "note": "the claim (no IOPIS EA ever runs a generation) is still true of the edited program: unreachable code"
 },
 "16I2": {
  "tightened": [],
  "note": "the claim is still true of the edited program: the IOPIS EAs never reach the end of a generation"
 },
 "15G14": {
  "tightened": [
   "c67_initial_weights"
  ],
  "note": "no theorem spoke about the starting weights of a subnet; added one, edit re-run as 15G14b and killed"
 },
 "17E1": {
  "tightened": [
   "c85_generation_floor"
  ],
  "note": "nothing bounded the surviving prey from below; re-run as 17E1b and killed"
 },
 "17E7": {
  "tightened": [
   "c85_evonn_aicc"
  ],
  "note": "the criterion was only used through its model definition; stated against an independent corrected Akaike formula; re-run as 17E7b and killed"
 },
 "17F1": {
  "tightened": [
   "c88_skips_unplottable",
   "c88_file_is_figure"
  ],
  "note": "re-run as 17F1b and killed"
 },
 "25B1": {
  "tightened": [],
  "note": "expected: the size argument is ignored by the code when a population is handed over, the claim is unaffected"
 },
 "25C4": {
  "tightened": [],
  "note": "the claim is still true of the edited program: another keyword RVEA does not accept is still passed, so IK_RVEA still cannot be constructed"
 },
 "25C5": {
  "tightened": [],
  "note": "the claim is still true of the edited program: iterate of the IOPIS EAs raises before this line"
 },
 "25C6": {
  "tightened": [],
  "note": "the claim is still true of the edited program: the first generation of the IOPIS EAs raises"
 },
 "25D2": {
  "tightened": [
   "c92_mixed_names_no_iteration"
  ],
  "note": "no theorem spoke about a plain name among lists; added one, re-run as 25D2b and killed"
 },
 "25D3": {
  "tightened": [
   "c92_objectives_under_fitness_names_violated"
  ],
  "note": "the theorem did not say what the columns of the fitness table are; re-run as 25D3b and killed"
 },
 "25J1": {
  "tightened": [],
  "note": "equivalent: the dimension of a population without individuals is never read, the first add sets it"
 },
 "30C1": {
  "tightened": [
   "c102_log_loss"
  ],
  "note": "no theorem spoke about the loss \"msle\"; added one, re-run as 30C1b and killed"
 },
 "30C2": {
  "tightened": [
   "c102_log_loss"
  ],
  "note": "no theorem spoke about the loss \"msle\"; added one, re-run as 30C2b and killed"
 },
 "35A2": {
  "tightened": [
   "c112_worst_is_nan"
  ],
  "note": "survived (the claims named only the ideal point); c112_worst_is_nan added, re-run as 35C1"
 },
 "36B5": {
  "tightened": [
   "c72_iopis_default_size"
  ],
  "note": "no theorem spoke about the default size of the IOPIS EAs; added one, re-run as 37B1"
 },
 "36B1": {
  "tightened": [],
  "note": "no claim affected: C72 shows that no generation of these EAs is ever completed, so this code is never reached"
 },
 "36B2": {
  "tightened": [],
  "note": "no claim affected: C72 shows that no generation of these EAs is ever completed, so this code is never reached"
 },
 "36B3": {
  "tightened": [],
  "note": "no claim affected: C72 shows that no generation of these EAs is ever completed, so this code is never reached"
 },
 "36G1": {
  "tightened": [
   "c15_constructed_from_problem"
  ],
  "note": "survived; the theorem was added: an interactive EA made from a data problem starts after a valid set_interaction_type"
 },
 "37A18": {
  "tightened": [],
  "note": "no claim affected: no zero divisor occurs in the cases the theorems of C113 speak of"
 },
 "39B5": {
  "tightened": [
   "c116_infinite_to_first_niche",
   "c116_infinite_taken_first"
  ],
  "note": "survived before; these theorems were added and fail under it"
 }
}