{
 "claims": [
  {
   "property": "C01",
   "status": "proved",
   "theorems": [
    "Pam.Dispatch.C01_success_needs_granting_module"
   ],
   "note": "over first call and all resumed calls, any flat list"
  },
  {
   "property": "C02",
   "status": "proved",
   "theorems": [
    "Pam.Dispatch.C02_failure_never_masked"
   ],
   "note": ""
  },
  {
   "property": "C03",
   "status": "proved",
   "theorems": [
    "Pam.Dispatch.C03_walk_is_structured_semantics"
   ],
   "note": "all trees nested < 16, which is what the loader builds"
  },
  {
   "property": "C04",
   "status": "proved",
   "theorems": [
    "Pam.Dispatch.C04_classic_flags"
   ],
   "note": ""
  },
  {
   "property": "C05",
   "status": "proved",
   "theorems": [
    "Pam.Dispatch.C05_resume_loses_nothing",
    "Pam.Dispatch.C05_no_line_answers_twice",
    "Pam.Dispatch.C05_suspended_position"
   ],
   "note": "the application keeps the same stack between the calls"
  },
  {
   "property": "C06",
   "status": "proved",
   "theorems": [
    "Pam.Config.C06_no_bad_substack_access",
    "Pam.Dispatch.C06_no_bad_substack_access_partial"
   ],
   "note": "every list of every loaded configuration, first and all resumed calls"
  },
  {
   "property": "C07",
   "status": "partial",
   "theorems": [
    "Pam.Dispatch.C07_frozen_chain_partial",
    "Pam.Dispatch.C07_frozen_chain_counterexample"
   ],
   "note": "full claim is false; counterexample proved"
  },
  {
   "property": "C08",
   "status": "partial",
   "theorems": [
    "Pam.Dispatch.C08_return_code_provenance_partial",
    "Pam.Dispatch.C08_replay_out_of_range_counterexample"
   ],
   "note": "range claim false for the replayed chain; proved for the others"
  },
  {
   "property": "C09",
   "status": "proved",
   "theorems": [
    "Pam.Handle.C09_no_modules_denied",
    "Pam.Handle.C09_other_ignored",
    "Pam.Handle.C09_other_used"
   ],
   "note": "Stated for every handle with loaded configuration, at the level of one dispatch."
  },
  {
   "property": "C10",
   "status": "proved",
   "theorems": [
    "Pam.Config.C10_control_meaning"
   ],
   "note": ""
  },
  {
   "property": "C100",
   "status": "proved",
   "theorems": [
    "Pam.Misc.C100_lines",
    "Pam.Misc.C100_all_or_nothing",
    "Pam.Misc.C100_end_of_input",
    "Pam.Misc.C100_read_error",
    "Pam.Misc.C100_safe",
    "Pam.Misc.C100_long_line_counterexample",
    "Pam.Misc.C100_nul_counterexample",
    "Pam.Misc.C100_binary_counterexample"
   ],
   "note": "For text prompts; the counterexamples show what happens to lines that do not fit and to binary prompts."
  },
  {
   "property": "C101",
   "status": "proved",
   "theorems": [
    "Pam.Misc.C101_prompt",
    "Pam.Misc.C101_conversation",
    "Pam.Misc.C101_no_settings"
   ],
   "note": ""
  },
  {
   "property": "C102",
   "status": "partial",
   "theorems": [
    "Pam.Misc.C102_prompt",
    "Pam.Misc.C102_too_late",
    "Pam.Misc.C102_time_up_partial",
    "Pam.Misc.C102_race_counterexample",
    "Pam.Misc.C102_far_counterexample"
   ],
   "note": "The second sentence is proved if no alarm goes off between the end of reading and the test for it; without this it is false (C102_race_counterexample)."
  },
  {
   "property": "C103",
   "status": "proved",
   "theorems": [
    "Pam.Misc.C103_setenv",
    "Pam.Misc.C103_paste",
    "Pam.Misc.C103_copy",
    "Pam.Misc.C103_readonly_counterexample"
   ],
   "note": ""
  },
  {
   "property": "C104",
   "status": "partial",
   "theorems": [
    "Pam.Misc.C104_sanitized",
    "Pam.Misc.C104_one_by_one_partial",
    "Pam.Misc.C104_no_writer",
    "Pam.Misc.C104_succeeds",
    "Pam.Misc.C104_high_counterexample"
   ],
   "note": "Complete where close_range works; elsewhere descriptors above 65535 or above the hard limit stay open (C104_high_counterexample)."
  },
  {
   "property": "C105",
   "status": "partial",
   "theorems": [
    "Pam.Mkhome.C105_new_home_is_a_copy_partial",
    "Pam.Mkhome.C105_succeeds_partial",
    "Pam.Mkhome.C105_mask",
    "Pam.Mkhome.C105_incomplete_home_counterexample",
    "Pam.Mkhome.C105_trailing_slash_counterexample",
    "Pam.Mkhome.C105_vendor_clash_counterexample",
    "Pam.Mkhome.C105_missed_file_counterexample"
   ],
   "note": "Proved when no entry of the sources fails to be looked at (lstat, readlink); otherwise entries are skipped silently (C105_missed_file_counterexample). Success needs a path without a slash at its end and sources that fit."
  },
  {
   "property": "C106",
   "status": "proved",
   "theorems": [
    "Pam.Mkhome.C106_existing_objects_are_kept",
    "Pam.Mkhome.C106_home_exists",
    "Pam.Mkhome.C106_refused"
   ],
   "note": ""
  },
  {
   "property": "C107",
   "status": "partial",
   "theorems": [
    "Pam.Mkhome.C107_octal_umask_is_obeyed_partial",
    "Pam.Mkhome.C107_home_mode",
    "Pam.Mkhome.C107_umask_without_zero_counterexample",
    "Pam.Mkhome.C107_login_umask_counterexample"
   ],
   "note": "The mode of the home directory is proved for all texts; that the files obey the same umask only for octal with a leading 0, and it is false otherwise."
  },
  {
   "property": "C108",
   "status": "partial",
   "theorems": [
    "Pam.Userdb.C108_authentication",
    "Pam.Userdb.C108_lookup",
    "Pam.Userdb.C108_options",
    "Pam.Userdb.C108_key_only_counterexample",
    "Pam.Userdb.C108_nul_counterexample",
    "Pam.Userdb.C108_empty_counterexample",
    "Pam.Userdb.C108_misspelt_counterexample"
   ],
   "note": "The equivalence is proved for all databases and arguments; that nobody gets in with the entry of another user is false with key_only (C108_key_only_counterexample)."
  },
  {
   "property": "C109",
   "status": "partial",
   "theorems": [
    "Pam.Userdb.C109_codes",
    "Pam.Userdb.C109_account",
    "Pam.Userdb.C109_unknown_ok_counterexample",
    "Pam.Userdb.C109_no_database_counterexample"
   ],
   "note": "All codes are proved; unknown_ok has no effect, and account management without db= is a bad access."
  },
  {
   "property": "C11",
   "status": "proved",
   "theorems": [
    "Pam.Config.C11_control_error_fails_closed",
    "Pam.Config.C11_control_error_never_accepts"
   ],
   "note": ""
  },
  {
   "property": "C110",
   "status": "proved",
   "theorems": [
    "Pam.Namespace.C110_fields",
    "Pam.Namespace.C110_every_line",
    "Pam.Namespace.C110_fits",
    "Pam.Namespace.C110_round_trip"
   ],
   "note": ""
  },
  {
   "property": "C111",
   "status": "partial",
   "theorems": [
    "Pam.Namespace.C111_line",
    "Pam.Namespace.C111_method",
    "Pam.Namespace.C111_variables",
    "Pam.Namespace.C111_nothing",
    "Pam.Namespace.C111_create",
    "Pam.Namespace.C111_create_unknown",
    "Pam.Namespace.C111_file",
    "Pam.Namespace.C111_all_files",
    "Pam.Namespace.C111_drop_ins",
    "Pam.Namespace.C111_empty_home_counterexample",
    "Pam.Namespace.C111_empty_method_counterexample",
    "Pam.Namespace.C111_mode_counterexample",
    "Pam.Namespace.C111_unreadable",
    "Pam.Namespace.C111_too_few"
   ],
   "note": "Proved for non-empty names and home directories and methods with a character other than a colon; the counterexamples show bad accesses in the other cases. The values of iscript= and mntopts= are modelled, their meaning is not stated."
  },
  {
   "property": "C112",
   "status": "partial",
   "theorems": [
    "Pam.Namespace.C112_list",
    "Pam.Namespace.C112_session_partial",
    "Pam.Namespace.C112_unmnt_only_counterexample"
   ],
   "note": "All but unmnt_only when a directory is polyinstantiated for the new user and not for the requesting one; there the claim is false."
  },
  {
   "property": "C113",
   "status": "partial",
   "theorems": [
    "Pam.Namespace.C113_user",
    "Pam.Namespace.C113_different",
    "Pam.Namespace.C113_long",
    "Pam.Namespace.C113_context",
    "Pam.Namespace.C113_cut_counterexample",
    "Pam.Namespace.C113_hash_counterexample",
    "Pam.Namespace.C113_context_counterexample"
   ],
   "note": "The user method, for names of up to 80 bytes and for names of 81 to 255 bytes; the counterexamples show the claim false otherwise."
  },
  {
   "property": "C114",
   "status": "partial",
   "theorems": [
    "Pam.Namespace.C114_path_partial",
    "Pam.Namespace.C114_no_other_partial",
    "Pam.Namespace.C114_link_counterexample",
    "Pam.Namespace.C114_double_slash_counterexample"
   ],
   "note": "Proved if links in directories of the system stay in them; otherwise false. Mount points are not modelled."
  },
  {
   "property": "C115",
   "status": "partial",
   "theorems": [
    "Pam.Namespace.C115_created_partial",
    "Pam.Namespace.C115_parent",
    "Pam.Namespace.C115_crash_counterexample"
   ],
   "note": "Owner, group and mode after success, nothing left after a failure; false after a crash."
  },
  {
   "property": "C116",
   "status": "partial",
   "theorems": [
    "Pam.Namespace.C116_close_partial",
    "Pam.Namespace.C116_tmpdir_counterexample",
    "Pam.Namespace.C116_failure_counterexample"
   ],
   "note": "With unmount_on_close and if no unmounting fails; false otherwise."
  },
  {
   "property": "C117",
   "status": "proved",
   "theorems": [
    "Pam.Exec.C117_command",
    "Pam.Exec.C117_runs",
    "Pam.Exec.C117_ignored",
    "Pam.Exec.C117_success",
    "Pam.Exec.C117_shown",
    "Pam.Exec.C117_functions"
   ],
   "note": ""
  },
  {
   "property": "C118",
   "status": "partial",
   "theorems": [
    "Pam.Exec.C118_password_partial",
    "Pam.Exec.C118_environment_partial",
    "Pam.Exec.C118_other",
    "Pam.Exec.C118_password_counterexample",
    "Pam.Exec.C118_environment_counterexample"
   ],
   "note": "Passwords of up to 511 bytes, and handles whose environment has none of the six variables; false otherwise."
  },
  {
   "property": "C119",
   "status": "partial",
   "theorems": [
    "Pam.Exec.C119_restored_partial",
    "Pam.Exec.C119_fork_counterexample",
    "Pam.Exec.C119_pipe_counterexample"
   ],
   "note": "Proved if the command is run; false if fork fails or there is no command."
  },
  {
   "property": "C12",
   "status": "proved",
   "theorems": [
    "Pam.Config.C12_arguments_round_trip",
    "Pam.Config.C12_line_words"
   ],
   "note": ""
  },
  {
   "property": "C120",
   "status": "proved",
   "theorems": [
    "Pam.Xauth.C120_nothing",
    "Pam.Xauth.C120_refused",
    "Pam.Xauth.C120_agreed",
    "Pam.Xauth.C120_handed",
    "Pam.Xauth.C120_forwarded",
    "Pam.Xauth.C120_local",
    "Pam.Xauth.C120_no_key"
   ],
   "note": ""
  },
  {
   "property": "C121",
   "status": "partial",
   "theorems": [
    "Pam.Xauth.C121_default",
    "Pam.Xauth.C121_numbers_partial",
    "Pam.Xauth.C121_other",
    "Pam.Xauth.C121_counterexample"
   ],
   "note": "Numbers below 2^32; false beyond."
  },
  {
   "property": "C122",
   "status": "partial",
   "theorems": [
    "Pam.Xauth.C122_removed_partial",
    "Pam.Xauth.C122_close",
    "Pam.Xauth.C122_regain_counterexample",
    "Pam.Xauth.C122_twice_counterexample"
   ],
   "note": "If privileges can be regained and the session is opened once; false otherwise."
  },
  {
   "property": "C123",
   "status": "partial",
   "theorems": [
    "Pam.Xauth.C123_success_partial",
    "Pam.Xauth.C123_counterexample"
   ],
   "note": "If xauth can be run; false otherwise."
  },
  {
   "property": "C124",
   "status": "partial",
   "theorems": [
    "Pam.Simple.C124_only_anonymous",
    "Pam.Simple.C124_anonymous_partial",
    "Pam.Simple.C124_comma_counterexample",
    "Pam.Simple.C124_null_counterexample"
   ],
   "note": "If the list does not begin with a comma and the answer is not NULL; false otherwise."
  },
  {
   "property": "C125",
   "status": "proved",
   "theorems": [
    "Pam.Simple.C125_granted",
    "Pam.Simple.C125_refused"
   ],
   "note": ""
  },
  {
   "property": "C126",
   "status": "proved",
   "theorems": [
    "Pam.Simple.C126_canonical",
    "Pam.Simple.C126_canonical_unknown",
    "Pam.Simple.C126_deny_permit",
    "Pam.Simple.C126_nobody",
    "Pam.Simple.C126_debug"
   ],
   "note": ""
  },
  {
   "property": "C127",
   "status": "partial",
   "theorems": [
    "Pam.Simple.C127_ignored",
    "Pam.Simple.C127_argument",
    "Pam.Simple.C127_login_defs_partial",
    "Pam.Simple.C127_blank_counterexample"
   ],
   "note": "login.defs lines without a blank at their end; false otherwise."
  },
  {
   "property": "C128",
   "status": "partial",
   "theorems": [
    "Pam.Simple.C128_session_partial",
    "Pam.Simple.C128_not_octal_counterexample",
    "Pam.Simple.C128_ulimit_counterexample",
    "Pam.Simple.C128_pri_counterexample"
   ],
   "note": "Values that are octal masks, GECOS fields with numbers in range; false otherwise."
  },
  {
   "property": "C129",
   "status": "proved",
   "theorems": [
    "Pam.Show.C129_nothing",
    "Pam.Show.C129_arguments",
    "Pam.Show.C129_file",
    "Pam.Show.C129_no_file",
    "Pam.Show.C129_safe"
   ],
   "note": ""
  },
  {
   "property": "C13",
   "status": "proved",
   "theorems": [
    "Pam.Config.C13_argv_in_buffer",
    "Pam.Config.C13_tokenizer_in_string"
   ],
   "note": ""
  },
  {
   "property": "C130",
   "status": "proved",
   "theorems": [
    "Pam.Show.C130_escapes",
    "Pam.Show.C130_noesc",
    "Pam.Show.C130_error",
    "Pam.Show.C130_once",
    "Pam.Show.C130_safe"
   ],
   "note": ""
  },
  {
   "property": "C131",
   "status": "partial",
   "theorems": [
    "Pam.Show.C131_session_partial",
    "Pam.Show.C131_nothing",
    "Pam.Show.C131_regain",
    "Pam.Show.C131_empty_counterexample",
    "Pam.Show.C131_directory_counterexample"
   ],
   "note": "Lists of directories without empty elements; false otherwise."
  },
  {
   "property": "C132",
   "status": "proved",
   "theorems": [
    "Pam.Session.C132_success",
    "Pam.Session.C132_decision",
    "Pam.Session.C132_unknown"
   ],
   "note": ""
  },
  {
   "property": "C133",
   "status": "proved",
   "theorems": [
    "Pam.Session.C133_orderly"
   ],
   "note": ""
  },
  {
   "property": "C134",
   "status": "partial",
   "theorems": [
    "Pam.Session.C134_only_partial",
    "Pam.Session.C134_then_partial",
    "Pam.Session.C134_unopened_counterexample",
    "Pam.Session.C134_thread_counterexample"
   ],
   "note": "The counter is opened less closed sessions; false as stated when closes are unmatched or made in another thread."
  },
  {
   "property": "C135",
   "status": "partial",
   "theorems": [
    "Pam.Session.C135_restored",
    "Pam.Session.C135_reported_partial",
    "Pam.Session.C135_close_counterexample"
   ],
   "note": "Closing a session does not report ids that were not changed back."
  },
  {
   "property": "C136",
   "status": "partial",
   "theorems": [
    "Pam.Session.C136_made_partial",
    "Pam.Session.C136_owner",
    "Pam.Session.C136_unlinked_counterexample",
    "Pam.Session.C136_other_user_counterexample"
   ],
   "note": "False in a thread that already has a keyring, unlinked or of another user."
  },
  {
   "property": "C137",
   "status": "partial",
   "theorems": [
    "Pam.Mail.C137_begin_partial",
    "Pam.Mail.C137_bad",
    "Pam.Mail.C137_unknown",
    "Pam.Mail.C137_empty_counterexample"
   ],
   "note": "The folder is that of the last dir= argument when it is not empty; false for an empty one after another."
  },
  {
   "property": "C138",
   "status": "partial",
   "theorems": [
    "Pam.Mail.C138_privileges",
    "Pam.Mail.C138_end_partial",
    "Pam.Mail.C138_nothing",
    "Pam.Mail.C138_stays_counterexample"
   ],
   "note": "MAIL is removed when privileges can be dropped and regained; false otherwise."
  },
  {
   "property": "C139",
   "status": "proved",
   "theorems": [
    "Pam.Lastlog.C139_others",
    "Pam.Lastlog.C139_recorded",
    "Pam.Lastlog.C139_failed",
    "Pam.Lastlog.C139_tells",
    "Pam.Lastlog.C139_rest",
    "Pam.Lastlog.C139_unsaid_counterexample"
   ],
   "note": ""
  },
  {
   "property": "C14",
   "status": "proved",
   "theorems": [
    "Pam.Config.C14_logical_lines",
    "Pam.Config.C14_line_shape",
    "Pam.Config.C14_dangling_continuation"
   ],
   "note": ""
  },
  {
   "property": "C140",
   "status": "partial",
   "theorems": [
    "Pam.Lastlog.C140_lockout_partial",
    "Pam.Lastlog.C140_2038_counterexample",
    "Pam.Lastlog.C140_text_counterexample"
   ],
   "note": "For last logins before 2038, and values of inactive= that are numbers; false from then on."
  },
  {
   "property": "C141",
   "status": "partial",
   "theorems": [
    "Pam.Lastlog.C141_failed_partial",
    "Pam.Lastlog.C141_uid_counterexample",
    "Pam.Lastlog.C141_long_counterexample",
    "Pam.Lastlog.C141_silent_counterexample"
   ],
   "note": "For ids up to LASTLOG_UID_MAX, times before 2038 and names in their first 32 bytes; false otherwise."
  },
  {
   "property": "C142",
   "status": "proved",
   "theorems": [
    "Pam.Audit.C142_open",
    "Pam.Audit.C142_wrap_counterexample"
   ],
   "note": ""
  },
  {
   "property": "C143",
   "status": "proved",
   "theorems": [
    "Pam.Audit.C143_restored",
    "Pam.Audit.C143_twice_counterexample"
   ],
   "note": "For one use of the module in a handle; false for two."
  },
  {
   "property": "C144",
   "status": "partial",
   "theorems": [
    "Pam.Audit.Sepermit.C144_decision_partial",
    "Pam.Audit.Sepermit.C144_colon_counterexample"
   ],
   "note": "False for lines of colons only, which crash."
  },
  {
   "property": "C145",
   "status": "partial",
   "theorems": [
    "Pam.Audit.Sepermit.C145_exclusive_partial",
    "Pam.Audit.Sepermit.C145_end",
    "Pam.Audit.Sepermit.C145_twice_counterexample",
    "Pam.Audit.Sepermit.C145_proc_counterexample"
   ],
   "note": "For handles that ask once; false otherwise. False if /proc cannot be read."
  },
  {
   "property": "C146",
   "status": "partial",
   "theorems": [
    "Pam.Quota.C146_range_partial",
    "Pam.Quota.C146_zero_counterexample"
   ],
   "note": "False for enduid= with startuid=0."
  },
  {
   "property": "C147",
   "status": "partial",
   "theorems": [
    "Pam.Quota.C147_fs",
    "Pam.Quota.C147_home_partial",
    "Pam.Quota.C147_own_counterexample",
    "Pam.Quota.C147_root_counterexample",
    "Pam.Quota.C147_hidden_counterexample"
   ],
   "note": "fs= is proved; for the home directory false in the three cases shown."
  },
  {
   "property": "C148",
   "status": "proved",
   "theorems": [
    "Pam.Quota.C148_limits",
    "Pam.Quota.C148_result",
    "Pam.Quota.C148_unit_counterexample"
   ],
   "note": "A value that is no number counts as 0, which is no limit."
  },
  {
   "property": "C149",
   "status": "partial",
   "theorems": [
    "Pam.Modutil.C149_lookup",
    "Pam.Modutil.C149_size",
    "Pam.Modutil.C149_spins_counterexample",
    "Pam.Modutil.C149_interrupted_counterexample"
   ],
   "note": "Proved given memory; false if the C library's lookup is interrupted three times. The path for a NULL handle is not modelled."
  },
  {
   "property": "C15",
   "status": "proved",
   "theorems": [
    "Pam.Config.C15_levels_bounded",
    "Pam.Config.C15_self_include",
    "Pam.Config.C15_self_include_stack",
    "Pam.Config.C15_unloadable_include"
   ],
   "note": "termination: the loader model is a total function, structurally recursive on the remaining include depth"
  },
  {
   "property": "C150",
   "status": "proved",
   "theorems": [
    "Pam.Modutil.C150_numbers",
    "Pam.Modutil.C150_lifetime",
    "Pam.Modutil.C150_getlogin"
   ],
   "note": "For module data whose names do not start with _pammodutil_."
  },
  {
   "property": "C151",
   "status": "proved",
   "theorems": [
    "Pam.Modutil.Prompt.C151_prompt",
    "Pam.Modutil.Prompt.C151_fails",
    "Pam.Modutil.Prompt.C151_both_counterexample"
   ],
   "note": ""
  },
  {
   "property": "C152",
   "status": "proved",
   "theorems": [
    "Pam.AuditLog.C152_success",
    "Pam.AuditLog.C152_truth",
    "Pam.AuditLog.C152_kernel",
    "Pam.AuditLog.C152_unknown",
    "Pam.AuditLog.C152_fields",
    "Pam.AuditLog.C152_transaction"
   ],
   "note": "For a library built with libaudit."
  },
  {
   "property": "C153",
   "status": "proved",
   "theorems": [
    "Pam.AuditLog.C153_grantors",
    "Pam.AuditLog.C153_reset_counterexample",
    "Pam.AuditLog.C153_interrupted_counterexample"
   ],
   "note": ""
  },
  {
   "property": "C154",
   "status": "partial",
   "theorems": [
    "Pam.Modules.C154_balanced_partial",
    "Pam.Modules.C154_paths",
    "Pam.Modules.C154_once",
    "Pam.Modules.C154_null_counterexample"
   ],
   "note": "False if the name of a module cannot be copied for lack of memory; the rest is proved."
  },
  {
   "property": "C155",
   "status": "partial",
   "theorems": [
    "Pam.Modules.C155_cleanup_partial",
    "Pam.Modules.C155_service_counterexample"
   ],
   "note": "Proved for transactions that read the configuration once; false after a change of PAM_SERVICE."
  },
  {
   "property": "C156",
   "status": "proved",
   "theorems": [
    "Pam.Limits.Kernel.C156_report",
    "Pam.Limits.Kernel.C156_safe",
    "Pam.Limits.Kernel.C156_session",
    "Pam.Limits.Kernel.C156_number",
    "Pam.Limits.Kernel.C156_no_number"
   ],
   "note": "The form of the kernel's report is a specification written here (fs/proc/base.c of Linux)."
  },
  {
   "property": "C157",
   "status": "partial",
   "theorems": [
    "Pam.Faillock.Tool.C157_refused",
    "Pam.Faillock.Tool.C157_reset_user",
    "Pam.Faillock.Tool.C157_unlocked",
    "Pam.Faillock.Tool.C157_reset_fails",
    "Pam.Faillock.Tool.C157_reset_all",
    "Pam.Faillock.Tool.C157_exit_counterexample",
    "Pam.Faillock.Tool.C157_show_keeps",
    "Pam.Faillock.Tool.C157_show",
    "Pam.Faillock.Tool.C157_dotted",
    "Pam.Faillock.Tool.C157_show_fails",
    "Pam.Faillock.Tool.C157_dir_fails"
   ],
   "note": "The exit status for all users at once does not tell of failures (C157_exit_counterexample); the rest is proved."
  },
  {
   "property": "C158",
   "status": "partial",
   "theorems": [
    "Pam.Pwh.C158_same",
    "Pam.Pwh.C158_check_fails",
    "Pam.Pwh.C158_save_fails",
    "Pam.Pwh.C158_long",
    "Pam.Pwh.C158_long_counterexample"
   ],
   "note": "Passwords of at most 512 characters; longer ones are refused (C158_long, C158_long_counterexample). A password larger than the pipe is not modelled."
  },
  {
   "property": "C159",
   "status": "proved",
   "theorems": [
    "Pam.Selinux.C159_asked",
    "Pam.Selinux.C159_asked_records",
    "Pam.Selinux.C159_env",
    "Pam.Selinux.C159_env_records",
    "Pam.Selinux.C159_default",
    "Pam.Selinux.C159_choice",
    "Pam.Selinux.C159_no",
    "Pam.Selinux.C159_words",
    "Pam.Selinux.C159_arguments"
   ],
   "note": ""
  },
  {
   "property": "C16",
   "status": "partial",
   "theorems": [
    "Pam.Config.C16_malformed_line_partial",
    "Pam.Config.C16_fails_closed_walk_partial",
    "Pam.Config.C16_illegal_type_counterexample",
    "Pam.Config.C16_illegal_type_include_counterexample"
   ],
   "note": "full claim false: illegal type with optional/sufficient or include is not fatal; counterexamples proved"
  },
  {
   "property": "C160",
   "status": "partial",
   "theorems": [
    "Pam.Selinux.C160_off",
    "Pam.Selinux.C160_only",
    "Pam.Selinux.C160_opened",
    "Pam.Selinux.C160_permissive",
    "Pam.Selinux.C160_restored",
    "Pam.Selinux.C160_labels",
    "Pam.Selinux.C160_key_counterexample",
    "Pam.Selinux.C160_label_counterexample",
    "Pam.Selinux.C160_half_counterexample",
    "Pam.Selinux.C160_works",
    "Pam.Selinux.C160_audit"
   ],
   "note": "The context for new keys is not put back (C160_key_counterexample); a NULL label is used while SELinux is not enforcing (C160_label_counterexample); the rest is proved."
  },
  {
   "property": "C161",
   "status": "proved",
   "theorems": [
    "Pam.Delay.C161_range",
    "Pam.Delay.C161_call",
    "Pam.Delay.C161_sleep",
    "Pam.Delay.C161_none",
    "Pam.Delay.C161_once",
    "Pam.Delay.C161_requests"
   ],
   "note": ""
  },
  {
   "property": "C162",
   "status": "partial",
   "theorems": [
    "Pam.Filter.C162_bounds",
    "Pam.Filter.C162_started_partial",
    "Pam.Filter.C162_starts",
    "Pam.Filter.C162_type_counterexample",
    "Pam.Filter.C162_otherwise",
    "Pam.Filter.C162_success",
    "Pam.Filter.C162_neither",
    "Pam.Filter.C162_terminal"
   ],
   "note": "For account management the variable TYPE names another operation (C162_type_counterexample); the rest is proved."
  },
  {
   "property": "C163",
   "status": "partial",
   "theorems": [
    "Pam.Filter.C163_status_partial",
    "Pam.Filter.C163_alone_partial",
    "Pam.Filter.C163_interrupted_counterexample",
    "Pam.Filter.C163_success",
    "Pam.Filter.C163_tokens",
    "Pam.Filter.C163_terminal",
    "Pam.Filter.C163_descriptors",
    "Pam.Filter.C163_slave"
   ],
   "note": "If wait is interrupted or reports another child the first process ends early (C163_interrupted_counterexample); the status is proved for histories of the two processes only."
  },
  {
   "property": "C164",
   "status": "proved",
   "theorems": [
    "Pam.Filter.Swap.C164_prefix",
    "Pam.Filter.Swap.C164_all",
    "Pam.Filter.Swap.C164_twice",
    "Pam.Filter.Swap.C164_runs",
    "Pam.Filter.Swap.C164_through"
   ],
   "note": ""
  },
  {
   "property": "C165",
   "status": "partial",
   "theorems": [
    "Pam.Unix.C165_same_partial",
    "Pam.Unix.C165_fails",
    "Pam.Unix.C165_who",
    "Pam.Unix.C165_null_counterexample"
   ],
   "note": "False when no old password is given and old ones are remembered (C165_null_counterexample); proved for the other cases."
  },
  {
   "property": "C166",
   "status": "proved",
   "theorems": [
    "Pam.Unix.Sess.C166_result",
    "Pam.Unix.Sess.C166_log",
    "Pam.Unix.Sess.C166_who"
   ],
   "note": ""
  },
  {
   "property": "C167",
   "status": "partial",
   "theorems": [
    "Pam.Misc.C167_refines",
    "Pam.Misc.C167_signals_partial",
    "Pam.Misc.C167_untimed",
    "Pam.Misc.C167_pending",
    "Pam.Misc.C167_counterexample"
   ],
   "note": "An alarm of the application does not survive a conversation with a time limit (C167_counterexample); the rest is proved."
  },
  {
   "property": "C168",
   "status": "partial",
   "theorems": [
    "Pam.Namespace.C168_safe_partial",
    "Pam.Namespace.C168_root_only",
    "Pam.Namespace.C168_sticky_counterexample"
   ],
   "note": "Directories writable by others with the sticky bit pass the check (C168_sticky_counterexample); what the check accepts is proved exactly."
  },
  {
   "property": "C169",
   "status": "partial",
   "theorems": [
    "Pam.Namespace.C169_script",
    "Pam.Namespace.C169_signals",
    "Pam.Namespace.C169_none",
    "Pam.Namespace.C169_works",
    "Pam.Namespace.C169_success_partial",
    "Pam.Namespace.C169_failure",
    "Pam.Namespace.C169_status_counterexample"
   ],
   "note": "The exit status of the script is ignored (C169_status_counterexample); the rest is proved."
  },
  {
   "property": "C17",
   "status": "proved",
   "theorems": [
    "Pam.Handle.C17_environment_is_a_map",
    "Pam.Handle.C17_putenv_codes",
    "Pam.Handle.C17_name_with_equals_counterexample",
    "Pam.Handle.C17_no_bad_access",
    "Pam.Handle.C17_getenv_is_last_put"
   ],
   "note": "All histories of pam_putenv with any arguments and allocation failures. A replacement that fails for lack of memory unsets the variable; names containing '=' are excluded with a counterexample."
  },
  {
   "property": "C170",
   "status": "partial",
   "theorems": [
    "Pam.Namespace.C170_success",
    "Pam.Namespace.C170_tmpfs",
    "Pam.Namespace.C170_failure",
    "Pam.Namespace.C170_clean",
    "Pam.Namespace.C170_missing",
    "Pam.Namespace.C170_works",
    "Pam.Namespace.C170_leftover_counterexample"
   ],
   "note": "A failing script leaves the mount, a failing creation the label for new files (C170_leftover_counterexample); the rest is proved."
  },
  {
   "property": "C171",
   "status": "partial",
   "theorems": [
    "Pam.Namespace.C171_only",
    "Pam.Namespace.C171_all_partial",
    "Pam.Namespace.C171_signals",
    "Pam.Namespace.C171_recorded",
    "Pam.Namespace.C171_fork_counterexample",
    "Pam.Namespace.C171_status_counterexample",
    "Pam.Namespace.C171_template_counterexample",
    "Pam.Namespace.C171_not_made"
   ],
   "note": "Not all are removed if a process cannot be started (C171_fork_counterexample), and something that was not made may be (C171_template_counterexample)."
  },
  {
   "property": "C172",
   "status": "partial",
   "theorems": [
    "Pam.Stack.C172_first_partial",
    "Pam.Stack.C172_first_history_partial",
    "Pam.Stack.C172_second_partial",
    "Pam.Stack.C172_second_account",
    "Pam.Stack.C172_second_attempt_partial",
    "Pam.Stack.C172_locks_partial",
    "Pam.Stack.C172_manual",
    "Pam.Stack.C172_right_password_counterexample",
    "Pam.Stack.C172_root_counterexample"
   ],
   "note": "Proved when the clock does not go back, deny is at most 1024, the tally files work and no module asks to be called again. Root is not locked (C172_root_counterexample) and the second stack counts refusals of other modules as failures (C172_right_password_counterexample)."
  },
  {
   "property": "C173",
   "status": "proved",
   "theorems": [
    "Pam.Stack.C173_other_file",
    "Pam.Stack.C173_other_file_logged",
    "Pam.Stack.C173_other_conf",
    "Pam.Stack.C173_message"
   ],
   "note": "For the first function of each type; modules do not return PAM_INCOMPLETE."
  },
  {
   "property": "C174",
   "status": "partial",
   "theorems": [
    "Pam.Stack.C174_rootok",
    "Pam.Stack.C174_wheel",
    "Pam.Stack.C174_local",
    "Pam.Stack.C174_remote_user_counterexample",
    "Pam.Stack.C174_member_counterexample"
   ],
   "note": "The examples of pam_rootok(8) and pam_wheel(8) do what they say. That of pam_localuser(8) does not: it looks at the target account and never lets in members of the group (the two counterexamples); C174_local says what it does."
  },
  {
   "property": "C175",
   "status": "partial",
   "theorems": [
    "Pam.Stack.C175_unknown",
    "Pam.Stack.C175_password",
    "Pam.Stack.C175_account",
    "Pam.Stack.C175_no_session",
    "Pam.Stack.C175_ftp",
    "Pam.Stack.C175_login",
    "Pam.Stack.C175_su",
    "Pam.Stack.C175_rlogin",
    "Pam.Stack.C175_rsh"
   ],
   "note": "Missing: command lines of the kernel that pam_securetty misreads (C87), a /etc/nologin that cannot be read, account databases that do not agree with themselves (C84), and the password lines, whose only first pass is any answer of pam_unix."
  },
  {
   "property": "C176",
   "status": "proved",
   "theorems": [
    "Pam.Whole.C176_answer",
    "Pam.Whole.C176_sound",
    "Pam.Whole.C176_no_name",
    "Pam.Whole.C176_again"
   ],
   "note": "The application's conversation function does not change the machine; the helper ends (hypotheses of the theorems)."
  },
  {
   "property": "C177",
   "status": "proved",
   "theorems": [
    "Pam.Whole.C177_account",
    "Pam.Whole.C177_alone"
   ],
   "note": "With the messages about expiry, untranslated."
  },
  {
   "property": "C178",
   "status": "proved",
   "theorems": [
    "Pam.Whole.C178_maxtries",
    "Pam.Whole.C178_memoryless"
   ],
   "note": "For arguments without nullok, nullresetok, use_first_pass and an application that always passes on a text."
  },
  {
   "property": "C179",
   "status": "proved",
   "theorems": [
    "Pam.Whole.C179_ends",
    "Pam.Whole.C179_change",
    "Pam.Whole.C179_healthy",
    "Pam.Whole.C179_login"
   ],
   "note": "A helper that does not end counts as a failure with PAM_SYSTEM_ERR; the files change in one step at the end of the second pass (C81 has the steps in between); answers of the application hold no NUL (hypothesis)."
  },
  {
   "property": "C18",
   "status": "proved",
   "theorems": [
    "Pam.Handle.C18_getenvlist_is_a_snapshot",
    "Pam.Handle.C18_getenvlist_in_history"
   ],
   "note": "Includes the bounds of the slot array."
  },
  {
   "property": "C180",
   "status": "proved",
   "theorems": [
    "Pam.Whole.C180_setcred",
    "Pam.Whole.C180_alone"
   ],
   "note": "Computed over the model of pam_unix and of the library together; the cleanup function of the kept code is modelled by the handle's data table."
  },
  {
   "property": "C181",
   "status": "partial",
   "theorems": [
    "Pam.Whole.C181_denied_partial",
    "Pam.Whole.C181_jump_counterexample",
    "Pam.Whole.C181_minus_one_counterexample"
   ],
   "note": "The full claim is false (two counterexamples). Proved for lines with classic control words and named modules none of which answers -1; calls that end in PAM_INCOMPLETE, pam_chauthtok and a change of PAM_SERVICE in between are left out; PAM_NEW_AUTHTOK_REQD counts as granted, as the control words do."
  },
  {
   "property": "C182",
   "status": "proved",
   "theorems": [
    "Pam.Whole.C182_line",
    "Pam.Whole.C182_guard",
    "Pam.Whole.C182_account"
   ],
   "note": "Lines with classic control words in the service's own file, without include or substack (C172 has the rewriting of these). A call that ends in PAM_INCOMPLETE or comes after one is left out, and so are pam_chauthtok and a change of PAM_SERVICE before. The name and the password are those in PAM_USER and PAM_AUTHTOK when pam_unix is called, or the application's answers."
  },
  {
   "property": "C183",
   "status": "proved",
   "theorems": [
    "Pam.Helper.C183_moved",
    "Pam.Helper.C183_reader",
    "Pam.Helper.C183_writer",
    "Pam.Helper.C183_silent",
    "Pam.Helper.C183_xauth",
    "Pam.Helper.C183_exec"
   ],
   "note": "The descriptors syslog may open are left out. What is written and read through the pipes is left out."
  },
  {
   "property": "C184",
   "status": "partial",
   "theorems": [
    "Pam.Helper.C184_reader",
    "Pam.Helper.C184_writer",
    "Pam.Helper.C184_silent",
    "Pam.Helper.C184_xauth_partial",
    "Pam.Helper.C184_xauth_counterexample",
    "Pam.Helper.C184_exec_partial",
    "Pam.Helper.C184_exec_counterexample"
   ],
   "note": "Proved of pam_unix, pam_pwhistory and pam_mkhomedir in all cases. False of pam_xauth when fork fails and of pam_exec when it gives up before there is a child; proved of both where there was a new process."
  },
  {
   "property": "C185",
   "status": "partial",
   "theorems": [
    "Pam.Whole.C185_line",
    "Pam.Whole.C185_current_partial",
    "Pam.Whole.C185_ignored_counterexample"
   ],
   "note": "The claim is false if the application's conversation answers PAM_IGNORE to a message (C185_ignored_counterexample); C185_current_partial excludes that by hypothesis. Lines with classic control words in the service's own file. A call that ends in PAM_INCOMPLETE or comes after one is left out, and so are an earlier pam_chauthtok on the handle and a change of PAM_SERVICE. Other programs leave the user database alone while pam_unix asks its questions; the password in PAM_OLDAUTHTOK may come from a module before pam_unix."
  },
  {
   "property": "C186",
   "status": "proved",
   "theorems": [
    "Pam.Audit.Sepermit.C186_look",
    "Pam.Audit.Sepermit.C186_exclusive",
    "Pam.Audit.Sepermit.C186_end",
    "Pam.Audit.Sepermit.C186_zombie_counterexample"
   ],
   "note": "The kernel's file status is a hypothesis (Shows): lines before the one with Uid do not begin with `Uid:` and hold no newline or NUL. Between the look and the signal a process id could be used again; memory is available. That the loop ends is not claimed, and false (C186_zombie_counterexample)."
  },
  {
   "property": "C187",
   "status": "proved",
   "theorems": [
    "Pam.Env.C187_buffer",
    "Pam.Env.C187_expand",
    "Pam.Env.C187_memory"
   ],
   "note": "Texts have no NUL and are shorter than 2^64 - 1 bytes (Values; values_of derives it from the strings they come from)."
  },
  {
   "property": "C188",
   "status": "partial",
   "theorems": [
    "Pam.Audit.Netlink.C188_status",
    "Pam.Audit.Netlink.C188_acknowledged_partial",
    "Pam.Audit.Netlink.C188_request",
    "Pam.Audit.Netlink.C188_session",
    "Pam.Audit.Netlink.C188_short_counterexample"
   ],
   "note": "Acknowledgements only for datagrams with a whole header, and without regard to an error number that was cut off: otherwise false (C188_short_counterexample)."
  },
  {
   "property": "C189",
   "status": "proved",
   "theorems": [
    "Pam.Namespace.C189_descriptors",
    "Pam.Namespace.C189_mounts",
    "Pam.Namespace.C189_protected",
    "Pam.Namespace.C189_undone",
    "Pam.Namespace.C189_setup_undone",
    "Pam.Namespace.C189_closed"
   ],
   "note": "What a directory is, is left to `fstat`, which may answer differently each time; the file system itself is modelled in Namespace/Opendir.lean."
  },
  {
   "property": "C19",
   "status": "proved",
   "theorems": [
    "Pam.Handle.C19_get_data_is_last_set",
    "Pam.Handle.C19_set_data_succeeds",
    "Pam.Handle.C19_cleanup_exactly_once",
    "Pam.Handle.C19_only_stored_data_cleaned"
   ],
   "note": "Over every history of library calls; cleanup functions do not themselves call the library in the model."
  },
  {
   "property": "C190",
   "status": "partial",
   "theorems": [
    "Pam.Namespace.C190_who_partial",
    "Pam.Namespace.C190_stack_counterexample"
   ],
   "note": "Only for stacks on which the buffer for PAM_RUSER happens to have an early NUL, or without PAM_RUSER: otherwise false (C190_stack_counterexample)."
  },
  {
   "property": "C191",
   "status": "partial",
   "theorems": [
    "Pam.Namespace.C191_root",
    "Pam.Namespace.C191_private_partial",
    "Pam.Namespace.C191_unreadable_counterexample"
   ],
   "note": "Only if the list of mounts can be read: otherwise false (C191_unreadable_counterexample)."
  },
  {
   "property": "C192",
   "status": "partial",
   "theorems": [
    "Pam.Namespace.C192_leaves",
    "Pam.Namespace.C192_stays_partial",
    "Pam.Namespace.C192_unknown",
    "Pam.Namespace.C192_alike_counterexample",
    "Pam.Namespace.C192_ignored_counterexample"
   ],
   "note": "A process stays only if the paths do not begin alike, and leaves only if it can: otherwise false (C192_alike_counterexample, C192_ignored_counterexample)."
  },
  {
   "property": "C193",
   "status": "proved",
   "theorems": [
    "Pam.Namespace.Lists.C193_once",
    "Pam.Namespace.Lists.C193_end",
    "Pam.Namespace.Lists.C193_failure"
   ],
   "note": "What is in the lists is left out; the mounts that go with them are in C189."
  },
  {
   "property": "C194",
   "status": "partial",
   "theorems": [
    "Pam.Log.C194_line",
    "Pam.Log.C194_verbatim",
    "Pam.Log.C194_memory",
    "Pam.Log.C194_who_partial",
    "Pam.Log.C194_who_counterexample",
    "Pam.Log.C194_strerror"
   ],
   "note": "The line does not tell who wrote it if the service name has a colon. printf has %s, %m and %% only; NULL arguments and translations are left out."
  },
  {
   "property": "C195",
   "status": "partial",
   "theorems": [
    "Pam.Handle.Reenter.C195_end",
    "Pam.Handle.Reenter.C195_once_partial",
    "Pam.Handle.Reenter.C195_new_partial",
    "Pam.Handle.Reenter.C195_self_counterexample"
   ],
   "note": "Proved when no cleanup function comes back to a name that is being cleaned (names have ranks); otherwise the calls need not return. At pam_end there is no such condition. Programs do not depend on what their calls return."
  },
  {
   "property": "C196",
   "status": "partial",
   "theorems": [
    "Pam.Filter.Table.C196_app",
    "Pam.Filter.Table.C196_filter",
    "Pam.Filter.Table.C196_ends",
    "Pam.Filter.Table.C196_left",
    "Pam.Filter.Table.C196_inherited_counterexample",
    "Pam.Filter.Table.C196_error_counterexample"
   ],
   "note": "The filter inherits the application's other descriptors, and an application that gets an error may have lost 0, 1 or 2; both are false of the code. Codes, modes and signals are in C162 and C163."
  },
  {
   "property": "C197",
   "status": "partial",
   "theorems": [
    "Pam.Userdb.Memory.C197_tidy",
    "Pam.Userdb.Memory.C197_answer",
    "Pam.Userdb.Memory.C197_closed",
    "Pam.Userdb.Memory.C197_library_counterexample",
    "Pam.Userdb.Memory.C197_unknown_counterexample"
   ],
   "note": "What the library hands out is not wiped or freed, and lack of memory for the key is reported as an unknown user; both are false of the code."
  },
  {
   "property": "C198",
   "status": "partial",
   "theorems": [
    "Pam.Env.Owner.C198_memory",
    "Pam.Env.Owner.C198_nothing_left_partial",
    "Pam.Env.Owner.C198_answer",
    "Pam.Env.Owner.C198_short",
    "Pam.Env.Owner.C198_lost_counterexample"
   ],
   "note": "That nothing is left in memory is false of the code if a setting is repeated on a line with quotes; it is proved for all other files. That values are wiped is not modelled."
  },
  {
   "property": "C199",
   "status": "partial",
   "theorems": [
    "Pam.Unix.Failures.C199_first",
    "Pam.Unix.Failures.C199_end",
    "Pam.Unix.Failures.C199_silent",
    "Pam.Unix.Failures.C199_forgotten_counterexample",
    "Pam.Unix.Failures.C199_uncounted_counterexample"
   ],
   "note": "That every failure is reported is false of the code if a success follows, or if memory runs out."
  },
  {
   "property": "C20",
   "status": "proved",
   "theorems": [
    "Pam.Handle.C20_tokens_refused",
    "Pam.Handle.C20_application_is_independent_of_tokens"
   ],
   "note": "Every interface function, not only pam_get_item/pam_set_item. Conversation functions run while a module runs and are outside the statement."
  },
  {
   "property": "C200",
   "status": "partial",
   "theorems": [
    "Pam.Stress.C200_calls",
    "Pam.Stress.C200_forwarded",
    "Pam.Stress.C200_none_forwarded",
    "Pam.Stress.C200_asked",
    "Pam.Stress.C200_unchanged",
    "Pam.Stress.C200_phases",
    "Pam.Stress.C200_old_first",
    "Pam.Stress.C200_change_partial",
    "Pam.Stress.C200_change_counterexample",
    "Pam.Stress.C200_old_counterexample"
   ],
   "note": "That a change makes the new password the password is false of the code without PAM_SILENT, and that the old one is kept is false with required."
  },
  {
   "property": "C21",
   "status": "proved",
   "theorems": [
    "Pam.Handle.C21_tokens_do_not_outlive_the_call",
    "Pam.Handle.C21_fresh_operation_ignores_old_tokens"
   ],
   "note": "Any handle state, modules and configuration."
  },
  {
   "property": "C22",
   "status": "partial",
   "theorems": [
    "Pam.Handle.C22_update_only_after_check",
    "Pam.Handle.C22_two_phases_partial",
    "Pam.Handle.C22_application_flags_refused",
    "Pam.Handle.C22_modules_get_the_flags",
    "Pam.Handle.C22_failed_reload_counterexample"
   ],
   "note": "Update only directly after a successful preliminary pass: proved for every history. The exact two-phase order: proved if no load of the configuration failed on the handle, counterexample otherwise."
  },
  {
   "property": "C23",
   "status": "proved",
   "theorems": [
    "Pam.Handle.C23_refused_from_modules",
    "Pam.Handle.C23_never_reentered"
   ],
   "note": "Per call and over all reachable handles."
  },
  {
   "property": "C24",
   "status": "proved",
   "theorems": [
    "Pam.Handle.C24_other_operation_aborts",
    "Pam.Handle.C24_suspended_operation_kept",
    "Pam.Handle.C24_resumes_same_operation"
   ],
   "note": "The refused operation leaves the suspended walk untouched; pam_authenticate/pam_chauthtok additionally wipe tokens, see DESIGN.md findings."
  },
  {
   "property": "C25",
   "status": "partial",
   "theorems": [
    "Pam.Handle.C25_largest_request_partial",
    "Pam.Handle.C25_stale_delay_counterexample",
    "Pam.Handle.C25_stale_delay_function_counterexample"
   ],
   "note": "Proved for every history whenever the first request is positive, or no delay function is set and nothing was requested or nothing failed; counterexamples for the rest."
  },
  {
   "property": "C26",
   "status": "proved",
   "theorems": [
    "Pam.Handle.C26_get_user",
    "Pam.Handle.C26_at_most_one_question",
    "Pam.Handle.C26_failure_not_repeated"
   ],
   "note": "Over every history of calls by modules and application."
  },
  {
   "property": "C27",
   "status": "proved",
   "theorems": [
    "Pam.Handle.C27_new_password_typed_twice",
    "Pam.Handle.C27_mismatch",
    "Pam.Handle.C27_try_again_is_mismatch",
    "Pam.Handle.C27_failure_stores_nothing",
    "Pam.Handle.C27_verify_confirms_partial",
    "Pam.Handle.C27_verify_mismatch",
    "Pam.Handle.C27_verify_skipped_counterexample"
   ],
   "note": "The verifying form is fully proved; for the two-step form confirmation is proved unless an earlier password was confirmed on the handle, with a counterexample."
  },
  {
   "property": "C28",
   "status": "proved",
   "theorems": [
    "Pam.Util.C28_consttime_streq",
    "Pam.Util.C28_consttime_strcaseeq"
   ],
   "note": ""
  },
  {
   "property": "C29",
   "status": "proved",
   "theorems": [
    "Pam.Util.C29_passwords",
    "Pam.Util.C29_independent_of_chunking"
   ],
   "note": ""
  },
  {
   "property": "C30",
   "status": "proved",
   "theorems": [
    "Pam.Util.C30_read_complete",
    "Pam.Util.C30_read_error",
    "Pam.Util.C30_write_complete",
    "Pam.Util.C30_write_error"
   ],
   "note": ""
  },
  {
   "property": "C31",
   "status": "proved",
   "theorems": [
    "Pam.Util.C31_user_lookup_exact",
    "Pam.Util.C31_user_lookup_codes"
   ],
   "note": ""
  },
  {
   "property": "C32",
   "status": "partial",
   "theorems": [
    "Pam.Util.C32_first_definition_partial",
    "Pam.Util.C32_no_file",
    "Pam.Util.C32_trailing_blanks_counterexample"
   ],
   "note": "blanks after the value (for instance before a comment) are kept, so the full statement is false"
  },
  {
   "property": "C33",
   "status": "partial",
   "theorems": [
    "Pam.Util.C33_dropped",
    "Pam.Util.C33_nothing_to_do",
    "Pam.Util.C33_failed_drop",
    "Pam.Util.C33_regained_partial",
    "Pam.Util.C33_regain_again_counterexample",
    "Pam.Util.C33_structure_used_up",
    "Pam.Util.C33_out_of_turn"
   ],
   "note": "a second regain after a failed one reports success without restoring the groups, so the full statement is false"
  },
  {
   "property": "C34",
   "status": "partial",
   "theorems": [
    "Pam.Pamc.C34_delivered_partial",
    "Pam.Pamc.C34_cut_short",
    "Pam.Pamc.C34_safe_partial",
    "Pam.Pamc.C34_short_frame_counterexample"
   ],
   "note": "the code does not reject replies shorter than their header (heap overflow for a length below 4), so the full statement is false; proved for every reply with a possible length"
  },
  {
   "property": "C35",
   "status": "partial",
   "theorems": [
    "Pam.Time.C35_tokens",
    "Pam.Time.C35_value",
    "Pam.Time.C35_malformed_partial",
    "Pam.Time.C35_dangling",
    "Pam.Time.C35_empty",
    "Pam.Time.C35_malformed_counterexample"
   ],
   "note": "A dangling operator at the end is accepted (counterexample); all other malformed fields never match."
  },
  {
   "property": "C36",
   "status": "proved",
   "theorems": [
    "Pam.Time.C36_window",
    "Pam.Time.C36_documented",
    "Pam.Time.C36_end_counterexample",
    "Pam.Time.C36_bad_day",
    "Pam.Time.C36_bad_time",
    "Pam.Time.C36_outside",
    "Pam.Time.C36_short_end"
   ],
   "note": "C36_end_counterexample shows that the end is not treated alike within a day and across midnight."
  },
  {
   "property": "C37",
   "status": "partial",
   "theorems": [
    "Pam.SucceedIf.C37_outcome_partial",
    "Pam.SucceedIf.C37_conjunction_partial",
    "Pam.SucceedIf.C37_no_subject",
    "Pam.SucceedIf.C37_ids",
    "Pam.SucceedIf.C37_list_partial",
    "Pam.SucceedIf.C37_list_run",
    "Pam.SucceedIf.C37_list_counterexample",
    "Pam.SucceedIf.C37_no_condition"
   ],
   "note": "Conjunction, first failing condition and completeness for all argument vectors; list elements are compared whole unless the text has a colon (counterexample)."
  },
  {
   "property": "C38",
   "status": "partial",
   "theorems": [
    "Pam.Faillock.C38_lockout_partial",
    "Pam.Faillock.C38_only_if",
    "Pam.Faillock.C38_cleared",
    "Pam.Faillock.C38_too_few",
    "Pam.Faillock.C38_locks",
    "Pam.Faillock.C38_large_deny_counterexample",
    "Pam.Faillock.C38_clock_counterexample",
    "Pam.Faillock.C38_no_permission",
    "Pam.Faillock.C38_untracked",
    "Pam.Faillock.C38_unreadable",
    "Pam.Faillock.C38_account",
    "Pam.Faillock.C38_admin",
    "Pam.Faillock.C38_record"
   ],
   "note": "Locked exactly per the specification for every history with a clock that does not go back and deny at most 1024; both limits are necessary (counterexamples). Tally file as a list of whole records, no libaudit."
  },
  {
   "property": "C39",
   "status": "partial",
   "theorems": [
    "Pam.Faillock.C39_serial_partial",
    "Pam.Faillock.C39_burst_partial",
    "Pam.Faillock.C39_missing_counterexample",
    "Pam.Faillock.C39_overtaking_counterexample"
   ],
   "note": "Any interleaving amounts to the updates one after the other, when the file exists; the general claim is false of the code: counterexamples for a missing file and for overtaking between reading the clock and taking the lock."
  },
  {
   "property": "C40",
   "status": "partial",
   "theorems": [
    "Pam.Access.C40_table_partial",
    "Pam.Access.C40_unique",
    "Pam.Access.C40_cache_counterexample",
    "Pam.Access.C40_newline_counterexample",
    "Pam.Access.C40_leading_separator_counterexample"
   ],
   "note": "Proved for tables in documented form when the answers about the origin do not depend on earlier questions (local logins, addresses, host names whose AF_INET and AF_UNSPEC lookups agree); without that the property is false (counterexample). A line without a newline at the end of the file is passed over; a line beginning with a field separator denies."
  },
  {
   "property": "C41",
   "status": "partial",
   "theorems": [
    "Pam.Access.C41_prefix_partial",
    "Pam.Access.C41_netmask",
    "Pam.Access.C41_host_partial",
    "Pam.Access.C41_zero_counterexample"
   ],
   "note": "Proved for prefix lengths from 1 to the size of the address, for netmasks written as addresses, for origins that are addresses and for host names; the exception 127.0.0.1/::1 is part of the statement. False for /0 (counterexample). Relies on stated laws of inet_pton, inet_ntop and getaddrinfo."
  },
  {
   "property": "C42",
   "status": "partial",
   "theorems": [
    "Pam.Limits.C42_limits_partial",
    "Pam.Limits.C42_hard_counterexample",
    "Pam.Limits.C42_ordered",
    "Pam.Limits.C42_range"
   ],
   "note": "Soft limits, order and overflow in full. The hard limit follows the same rule only if entries for the soft limit alone are not mixed with entries of type -; otherwise the claim is false (counterexample)."
  },
  {
   "property": "C43",
   "status": "proved",
   "theorems": [
    "Pam.Config.C43_loaded_stacks",
    "Pam.Config.C43_loaded_stacks_pam_conf",
    "Pam.Config.C43_call_is_structured_semantics",
    "Pam.Config.C43_search_order"
   ],
   "note": ""
  },
  {
   "property": "C44",
   "status": "proved",
   "theorems": [
    "Pam.Handle.C44_service_is_a_plain_name",
    "Pam.Handle.C44_service_file_confined",
    "Pam.Handle.C44_set_item_counterexample"
   ],
   "note": "pam_set_item does not cut the name: counterexample theorem."
  },
  {
   "property": "C45",
   "status": "proved",
   "theorems": [
    "Pam.Handle.C45_get_item_is_last_set",
    "Pam.Handle.C45_set_item_succeeds",
    "Pam.Handle.C45_unknown_item_refused"
   ],
   "note": ""
  },
  {
   "property": "C46",
   "status": "proved",
   "theorems": [
    "Pam.Pamc.C46_confined",
    "Pam.Pamc.C46_disabled_never_run",
    "Pam.Pamc.C46_run_once"
   ],
   "note": ""
  },
  {
   "property": "C47",
   "status": "proved",
   "theorems": [
    "Pam.Pamc.C47_routed",
    "Pam.Pamc.C47_nothing_before_selection"
   ],
   "note": ""
  },
  {
   "property": "C48",
   "status": "proved",
   "theorems": [
    "Pam.Pamc.C48_end"
   ],
   "note": ""
  },
  {
   "property": "C49",
   "status": "partial",
   "theorems": [
    "Pam.Pamc.C49_two_agents_counterexample",
    "Pam.Pamc.C49_at_most_one_agent_partial"
   ],
   "note": "false whenever two agents are installed: the count of nodes is wrong, so the call overruns its list or ends the process"
  },
  {
   "property": "C50",
   "status": "partial",
   "theorems": [
    "Pam.Pamc.C50_agent_name_counterexample",
    "Pam.Pamc.C50_every_second_character_partial",
    "Pam.Pamc.C50_plain_name_accepted"
   ],
   "note": "the loop looks at every second character only, so the full statement is false in both directions"
  },
  {
   "property": "C51",
   "status": "proved",
   "theorems": [
    "Pam.Pamc.C51_agent_directories"
   ],
   "note": ""
  },
  {
   "property": "C52",
   "status": "partial",
   "theorems": [
    "Pam.Time.C52_name_partial",
    "Pam.Time.C52_name_counterexample"
   ],
   "note": "Undefined behaviour when the text after the star is longer than the string."
  },
  {
   "property": "C53",
   "status": "partial",
   "theorems": [
    "Pam.Time.C53_decision_partial",
    "Pam.Time.C53_codes",
    "Pam.Time.C53_no_file",
    "Pam.Time.C53_no_user",
    "Pam.Time.C53_tty",
    "Pam.Time.C53_last_line_counterexample",
    "Pam.Time.C53_end_counterexample",
    "Pam.Time.C53_error_counterexample"
   ],
   "note": "Missing: rules with a name whose comparison is undefined (C52). Buffer allocation does not fail."
  },
  {
   "property": "C54",
   "status": "partial",
   "theorems": [
    "Pam.Time.C54_groups_partial",
    "Pam.Time.C54_only_adds",
    "Pam.Time.C54_memory",
    "Pam.Time.C54_other_calls",
    "Pam.Time.C54_operator_counterexample"
   ],
   "note": "Missing: rules with a name whose comparison is undefined (C52). Allocation does not fail."
  },
  {
   "property": "C55",
   "status": "proved",
   "theorems": [
    "Pam.Faillock.C55_interrupted"
   ],
   "note": "System call failures at every point, at the granularity of whole records."
  },
  {
   "property": "C56",
   "status": "partial",
   "theorems": [
    "Pam.Faillock.C56_options",
    "Pam.Faillock.C56_numbers",
    "Pam.Faillock.C56_range_counterexample",
    "Pam.Faillock.C56_line",
    "Pam.Faillock.C56_no_setting",
    "Pam.Faillock.C56_missing_file",
    "Pam.Faillock.C56_other_options",
    "Pam.Faillock.C56_file"
   ],
   "note": "Full for options and file syntax; numbers out of range wrap around (counterexample). Lines longer than the buffer are taken as read by getline."
  },
  {
   "property": "C57",
   "status": "partial",
   "theorems": [
    "Pam.Access.C57_directory",
    "Pam.Access.C57_arguments",
    "Pam.Access.C57_origin",
    "Pam.Access.C57_answer_partial",
    "Pam.Access.C57_failures",
    "Pam.Access.C57_names",
    "Pam.Access.C57_accessfile"
   ],
   "note": "As C40: the answer is proved when lookups of the origin are steady and the files are in documented form."
  },
  {
   "property": "C58",
   "status": "proved",
   "theorems": [
    "Pam.Access.C58_group",
    "Pam.Access.C58_netgroup",
    "Pam.Access.C58_user_at_host",
    "Pam.Access.C58_plain",
    "Pam.Access.C58_forms"
   ],
   "note": "One theorem for each form of word, and one that these are all."
  },
  {
   "property": "C59",
   "status": "partial",
   "theorems": [
    "Pam.Access.C59_netgroup",
    "Pam.Access.C59_local",
    "Pam.Access.C59_name",
    "Pam.Access.C59_remote_partial",
    "Pam.Access.C59_local_counterexample",
    "Pam.Access.C59_domain_partial",
    "Pam.Access.C59_subnet",
    "Pam.Access.C59_address",
    "Pam.Access.C59_nodns"
   ],
   "note": "LOCAL also matches a remote host called local (counterexample); .domain is proved for words the resolver does not know; host names in the table that are resolved are covered only as far as nodns is given or the word is an address or network (C41)."
  },
  {
   "property": "C60",
   "status": "partial",
   "theorems": [
    "Pam.Limits.C60_domains",
    "Pam.Limits.C60_free_partial",
    "Pam.Limits.C60_percent_counterexample"
   ],
   "note": "Domains of entries in full, for user names without a colon. Lines 'domain -' except those with %, for which the claim is false (counterexample)."
  },
  {
   "property": "C61",
   "status": "proved",
   "theorems": [
    "Pam.Limits.C61_free",
    "Pam.Limits.C61_failures",
    "Pam.Limits.C61_arguments",
    "Pam.Limits.C61_root",
    "Pam.Limits.C62_maxlogins_partial",
    "Pam.Limits.C62_maxsyslogins_partial"
   ],
   "note": "The part about logins is C62."
  },
  {
   "property": "C62",
   "status": "partial",
   "theorems": [
    "Pam.Limits.C62_maxlogins_partial",
    "Pam.Limits.C62_maxsyslogins_partial",
    "Pam.Limits.C62_mixed_counterexample"
   ],
   "note": "Proved for tables that use only one of the two items, and % entries of one group; with both the claim is false (counterexample)."
  },
  {
   "property": "C63",
   "status": "proved",
   "theorems": [
    "Pam.Limits.C63_priority",
    "Pam.Limits.C63_nonewprivs"
   ],
   "note": "Values of priority entries are numbers."
  },
  {
   "property": "C64",
   "status": "partial",
   "theorems": [
    "Pam.Pwh.C64_update_partial",
    "Pam.Pwh.C64_new",
    "Pam.Pwh.C64_nothing",
    "Pam.Pwh.C64_lowered_counterexample",
    "Pam.Pwh.C64_newline_counterexample",
    "Pam.Pwh.C64_concurrent_counterexample"
   ],
   "note": "False of the code when the limit was lowered, when the last line has no newline, and for concurrent changes (counterexamples); proved for files of complete lines with one entry of the user."
  },
  {
   "property": "C65",
   "status": "partial",
   "theorems": [
    "Pam.Pwh.C65_no_reuse_partial",
    "Pam.Pwh.C65_check",
    "Pam.Pwh.C65_no_entry",
    "Pam.Pwh.C65_unreadable_counterexample"
   ],
   "note": "Proved for all sequences of calls and crash points one after another; false if the history cannot be read when consulted or the final rename fails."
  },
  {
   "property": "C66",
   "status": "proved",
   "theorems": [
    "Pam.Pwh.C66_answer",
    "Pam.Pwh.C66_early"
   ],
   "note": ""
  },
  {
   "property": "C67",
   "status": "partial",
   "theorems": [
    "Pam.Pwh.C67_crash",
    "Pam.Pwh.C67_failure",
    "Pam.Pwh.C67_rename_counterexample"
   ],
   "note": "Success without an update is possible: the result of rename is ignored."
  },
  {
   "property": "C68",
   "status": "partial",
   "theorems": [
    "Pam.Pwh.C68_remember",
    "Pam.Pwh.C68_tries",
    "Pam.Pwh.C68_enforce",
    "Pam.Pwh.C68_file",
    "Pam.Pwh.C68_negative",
    "Pam.Pwh.C68_range_counterexample",
    "Pam.Pwh.C68_conf"
   ],
   "note": "False for numbers out of range: the configuration file has no upper limit and numbers wrap around."
  },
  {
   "property": "C69",
   "status": "proved",
   "theorems": [
    "Pam.Unix.C69_accepts",
    "Pam.Unix.C69_codes",
    "Pam.Unix.C69_locked",
    "Pam.Unix.C69_eight"
   ],
   "note": "crypt(3) is a parameter"
  },
  {
   "property": "C70",
   "status": "proved",
   "theorems": [
    "Pam.Unix.C70_round_trip",
    "Pam.Unix.C70_prefix"
   ],
   "note": "under the laws of crypt(3) stated as Laws; toyLaws shows a function that has them"
  },
  {
   "property": "C71",
   "status": "proved",
   "theorems": [
    "Pam.Unix.C71_answer",
    "Pam.Unix.C71_monotone"
   ],
   "note": "for entries whose sums stay within a long (Aging.Ok); outside, the model has its own outcome"
  },
  {
   "property": "C72",
   "status": "partial",
   "theorems": [
    "Pam.Unix.C72_word",
    "Pam.Unix.C72_nullok",
    "Pam.Unix.C72_method",
    "Pam.Unix.C72_quiet_counterexample",
    "Pam.Unix.C72_quiet_partial",
    "Pam.Unix.C72_defined",
    "Pam.Unix.C72_remember",
    "Pam.Unix.C72_minlen",
    "Pam.Unix.C72_rounds",
    "Pam.Unix.C72_debug",
    "Pam.Unix.C72_call"
   ],
   "note": "false of quiet, which a later hash method switches off; proved in that form; C72_call also covers PAM_CHANGE_EXPIRED_AUTHTOK"
  },
  {
   "property": "C73",
   "status": "proved",
   "theorems": [
    "Pam.Unix.C73_drop",
    "Pam.Unix.C73_others",
    "Pam.Unix.C73_answer",
    "Pam.Unix.C73_sound",
    "Pam.Unix.C73_expiry"
   ],
   "note": "the helper as built without libaudit; set*id as the kernel documents them"
  },
  {
   "property": "C74",
   "status": "proved",
   "theorems": [
    "Pam.Unix.C74_accept",
    "Pam.Unix.C74_sound",
    "Pam.Unix.C74_strict",
    "Pam.Unix.C74_confined"
   ],
   "note": "built without NIS, SELinux and PAM_UNIX_TRY_GETSPNAM"
  },
  {
   "property": "C75",
   "status": "proved",
   "theorems": [
    "Pam.Unix.C75_maxtries"
   ],
   "note": "calls of _unix_verify_password with one handle"
  },
  {
   "property": "C76",
   "status": "proved",
   "theorems": [
    "Pam.Unix.C76_answer",
    "Pam.Unix.C76_sound"
   ],
   "note": "which messages are sent, not their text"
  },
  {
   "property": "C77",
   "status": "proved",
   "theorems": [
    "Pam.Unix.C77_answer",
    "Pam.Unix.C77_errors",
    "Pam.Unix.C77_sound",
    "Pam.Unix.C77_strict",
    "Pam.Unix.C77_same_work",
    "Pam.Unix.C77_setcred",
    "Pam.Unix.C77_disallow_counterexample"
   ],
   "note": "same work: number of helper runs, without nullresetok"
  },
  {
   "property": "C78",
   "status": "proved",
   "theorems": [
    "Pam.Unix.C78_passwd",
    "Pam.Unix.C78_passwd_works",
    "Pam.Unix.C78_shadow",
    "Pam.Unix.C78_shadow_works",
    "Pam.Unix.C78_passwd_unknown"
   ],
   "note": "the C library's parsing and printing of entries is taken as exact; rename is atomic"
  },
  {
   "property": "C79",
   "status": "proved",
   "theorems": [
    "Pam.Unix.C79_change",
    "Pam.Unix.C79_works",
    "Pam.Unix.C79_login"
   ],
   "note": "built without NIS and SELinux"
  },
  {
   "property": "C80",
   "status": "proved",
   "theorems": [
    "Pam.Unix.C80_authorised",
    "Pam.Unix.C80_locked",
    "Pam.Unix.C80_change",
    "Pam.Unix.C80_works"
   ],
   "note": "the lock itself (lckpwdf) is trusted"
  },
  {
   "property": "C81",
   "status": "proved",
   "theorems": [
    "Pam.Unix.C81_refused",
    "Pam.Unix.C81_sound",
    "Pam.Unix.C81_locked",
    "Pam.Unix.C81_change",
    "Pam.Unix.C81_login",
    "Pam.Unix.C81_works",
    "Pam.Unix.C81_prelim",
    "Pam.Unix.C81_asks"
   ],
   "note": "built without NIS and SELinux; the old password is checked in the second phase only if the application still holds it"
  },
  {
   "property": "C82",
   "status": "partial",
   "theorems": [
    "Pam.Unix.C82_check",
    "Pam.Unix.C82_remember_partial",
    "Pam.Unix.C82_works",
    "Pam.Unix.C82_history_partial",
    "Pam.Unix.C82_remember_counterexample"
   ],
   "note": "false if a line cannot be written (counterexample); proved if writing succeeds, for files whose entries are well formed"
  },
  {
   "property": "C83",
   "status": "proved",
   "theorems": [
    "Pam.Small.C83_answer",
    "Pam.Small.C83_errors",
    "Pam.Small.C83_item_counterexample"
   ],
   "note": "for options in which no item= word follows item=group or item=shell with another meaning (counterexample otherwise)"
  },
  {
   "property": "C84",
   "status": "proved",
   "theorems": [
    "Pam.Small.C84_answer",
    "Pam.Small.C84_trust",
    "Pam.Small.C84_alias_counterexample"
   ],
   "note": "if no other account has the invoker's user id (counterexample otherwise)"
  },
  {
   "property": "C85",
   "status": "proved",
   "theorems": [
    "Pam.Small.C85_closed",
    "Pam.Small.C85_open"
   ],
   "note": ""
  },
  {
   "property": "C86",
   "status": "proved",
   "theorems": [
    "Pam.Small.C86_answer",
    "Pam.Small.C86_codes"
   ],
   "note": "built without libeconf"
  },
  {
   "property": "C87",
   "status": "partial",
   "theorems": [
    "Pam.Small.C87_answer_partial",
    "Pam.Small.C87_cmdline_counterexample",
    "Pam.Small.C87_short_counterexample",
    "Pam.Small.C87_pts_counterexample",
    "Pam.Small.C87_empty_line_counterexample"
   ],
   "note": "false of command lines the module misreads (counterexamples); proved for the others"
  },
  {
   "property": "C88",
   "status": "proved",
   "theorems": [
    "Pam.Small.C88_usertype",
    "Pam.Small.C88_rootok",
    "Pam.Small.C88_localuser"
   ],
   "note": ""
  },
  {
   "property": "C89",
   "status": "partial",
   "theorems": [
    "Pam.Env.C89_configuration_partial",
    "Pam.Env.C89_bad_line",
    "Pam.Env.C89_session_partial",
    "Pam.Env.C89_quote_counterexample",
    "Pam.Env.C89_last_line_counterexample",
    "Pam.Env.C89_comment_counterexample"
   ],
   "note": "false of entries in which a setting without a value follows one in quotes (counterexample), proved for the others; names with = in them are left out"
  },
  {
   "property": "C90",
   "status": "proved",
   "theorems": [
    "Pam.Env.C90_environment_file",
    "Pam.Env.C90_every_line",
    "Pam.Env.C90_one_meaning"
   ],
   "note": ""
  },
  {
   "property": "C91",
   "status": "proved",
   "theorems": [
    "Pam.Env.C91_total",
    "Pam.Env.C91_only_system_files_with_privileges",
    "Pam.Env.C91_own_file_only_if_asked",
    "Pam.Env.C91_only_that_file"
   ],
   "note": ""
  },
  {
   "property": "C92",
   "status": "proved",
   "theorems": [
    "Pam.Digest.Sha1.C92_sha1",
    "Pam.Digest.Sha1.C92_parts",
    "Pam.Digest.Sha1.C92_midway",
    "Pam.Digest.Sha1.C92_long_part_counterexample"
   ],
   "note": ""
  },
  {
   "property": "C93",
   "status": "proved",
   "theorems": [
    "Pam.Digest.Sha1.C93_hmac",
    "Pam.Digest.Sha1.C93_short_key"
   ],
   "note": ""
  },
  {
   "property": "C94",
   "status": "proved",
   "theorems": [
    "Pam.Digest.Md5.C94_md5",
    "Pam.Digest.Md5.C94_parts"
   ],
   "note": ""
  },
  {
   "property": "C95",
   "status": "proved",
   "theorems": [
    "Pam.Digest.Md5.C95_crypt",
    "Pam.Digest.Md5.C95_verify",
    "Pam.Digest.Md5.C95_same_hash",
    "Pam.Digest.Md5.C95_shape"
   ],
   "note": ""
  },
  {
   "property": "C96",
   "status": "proved",
   "theorems": [
    "Pam.Timestamp.C96_success_iff",
    "Pam.Timestamp.C96_otherwise",
    "Pam.Timestamp.C96_relative_counterexample",
    "Pam.Timestamp.C96_long_dir_counterexample",
    "Pam.Timestamp.C96_timeout_counterexample",
    "Pam.Timestamp.C96_2038_counterexample",
    "Pam.Timestamp.C96_epoch_counterexample"
   ],
   "note": "Under the conditions named in the statement (Ordinary); the counterexamples show what happens outside them."
  },
  {
   "property": "C97",
   "status": "proved",
   "theorems": [
    "Pam.Timestamp.C97_round_trip",
    "Pam.Timestamp.C97_other_request",
    "Pam.Timestamp.C97_interrupted",
    "Pam.Timestamp.C97_directories",
    "Pam.Timestamp.C97_injective",
    "Pam.Timestamp.C97_file",
    "Pam.Timestamp.C97_colon_counterexample",
    "Pam.Timestamp.C97_slash_counterexample"
   ],
   "note": ""
  },
  {
   "property": "C98",
   "status": "proved",
   "theorems": [
    "Pam.Timestamp.C98_key_stays",
    "Pam.Timestamp.C98_mac",
    "Pam.Timestamp.C98_created",
    "Pam.Timestamp.C98_short_key_locks"
   ],
   "note": ""
  },
  {
   "property": "C99",
   "status": "proved",
   "theorems": [
    "Pam.Timestamp.C99_check_iff",
    "Pam.Timestamp.C99_same_file",
    "Pam.Timestamp.C99_agrees",
    "Pam.Timestamp.C99_weaker_counterexample"
   ],
   "note": ""
  }
 ]
}