# Formal model of linux-pam: design

## Layout

* `lean/Verif/<Area>/Model.lean` – the code, function by function (total, computable Lean
  functions; each definition cites file and lines under /repo).
* `lean/Verif/<Area>/Spec.lean`  – small independent specification used in the statements.
* `lean/Verif/<Area>/Lemmas.lean` – helper lemmas.
* `lean/Verif/<Area>/Props.lean` – the property theorems, with witnesses that
  their hypotheses are satisfiable.
* `properties.jsonl` – the English properties; `MANIFEST.json` – property → theorem names;
  `seeded/LOG.jsonl` – mutation experiments.

## Trusted base

* Lean 4.33.0 kernel. No axioms of our own; every property theorem depends at most on
  `propext`, `Classical.choice`, `Quot.sound` (checked with `#print axioms`).
* The hand translation C → Lean described per definition. The C compiler, libc, the kernel,
  dlopen and the modules' code outside the modelled ones are not verified; they enter the
  model as arbitrary functions/answers over which theorems quantify.

## Conventions

* C strings are `List Char` (one `Char` per byte, the terminating NUL left implicit; `'\0'`
  inside a list only where the code handles raw file bytes).
* C `int` return codes are `Int`; arithmetic that can wrap in C is modelled on `UInt64`/explicit
  modulus or guarded by an explicit overflow outcome.
* Undefined behaviour (out-of-bounds, uninitialised read) is a distinct outcome, never a
  default value.
* A module function is an arbitrary function `σ → Int × σ` on an arbitrary world `σ`
  (which includes the handle's items, the application and the outside world).

## Properties: what is modelled and how it will be proved

| id | model | proof |
|----|-------|-------|
| C01 | `_pam_dispatch_aux` as a recursive function on the handler list, ghost trace of calls | invariant "impression positive → some grantor, each grantor returned PAM_SUCCESS" by induction on the walk |
| C02 | same | invariant: negative impression is permanent without reset |
| C03 | same + tree-shaped stacks, flattening | refinement: structural induction on trees |
| C04 | same, classic tables of `_pam_parse_conf_file` | refinement to a declarative spec, induction on the list |
| C05 | same with `former` state; driver loop re-calling | simulation by induction on walk and on number of interruptions |
| C06 | same; slots are `Option`, reading `none` or index ≥ 16 is `ub` | invariant on levels + loader theorem |
| C07 | same, cells shared between both chains | induction over the walk; known counterexample with PAM_IGNORE from the second function |
| C08 | same | invariant over status |
| C09 | `_pam_dispatch` stack choice | case analysis |
| C10, C11 | `_pam_parse_control`, `_pam_set_default_control` | grammar-level spec, induction on entries |
| C12, C13 | `_pam_tokenize`, `_pam_mkargv` | round-trip / length induction |
| C14 | `pam_line.c` over file bytes | induction on physical lines |
| C15, C16, C43 | `_pam_parse_conf_file`, `_pam_load_conf_file` with file system as a function | fuel-free recursion on include depth, level invariants |
| C17, C18 | `pam_env.c` list with allocation oracle | refinement to a finite map over histories |
| C19 | `pam_data.c` | refinement with log of cleanups |
| C20–C24 | handle state machine (`pam_auth.c`, `pam_password.c`, ...) | invariants over histories of calls |
| C25 | `pam_delay.c` | max fold |
| C26, C27 | `pam_get_user`, `pam_get_authtok*` with conversation oracle | case analysis + history invariants |
| C44 | `_pam_start_internal`, `pam_set_item`, `_pam_open_config_file` | string induction, frame of the file system |
| C45 | `pam_set_item`/`pam_get_item` | history refinement to independent variables |
| C28–C33 | helpers in `pam_inline.h`, `pam_modutil_*.c` with I/O schedules | induction on schedule/string |
| C34 | `pamc_converse.c` | induction on schedule |
| C46–C48 | `pamc_load.c`, `pamc_client.c`, `pamc_converse.c` as a state machine with a trace | invariant over histories of calls |
| C49–C51 | `pamc_list_agents`, `__pamc_valid_agent_id`, `pamc_start` | structural induction on trees and strings |
| C35, C36, C52 | pam_time/pam_group: `logic_member`, `logic_field`, `is_same`, `check_time` | tokens as an inductive relation, loop = left-to-right value by induction; bit sets of days by xor parity |
| C53, C54 | pam_time/pam_group: `read_field` over a 1000-byte window, `check_account`, `mkgrplist` | documented file form as an inductive relation, induction on it; memory invariant of the group list |
| C37 | pam_succeed_if: argument walk, `evaluate` and its operators; strtol family in `Core/Strtol` | conditions as triples of words with a declarative meaning, induction on the argument vector |
| C38, C39, C55 | pam_faillock: `check_tally`, `write_tally`, `reset_tally`, tally file with failing system calls; processes with flock | invariant over histories relating records to counted failures; interleaving model, serialisation of the updates |
| C56 | pam_faillock: configuration file, `set_conf_opt`, `args_parse` | fold of settings = last readable setting per option |
| C40, C57 | pam_access: `login_access`, `list_match`, `read_access_dir`, `parse_args`, `pam_sm_authenticate` | grammar of tables as a relation between lines and rules; first rule that applies; invariant for the cached lookup |
| C41 | pam_access: `number_to_netmask`, `are_addresses_equal`, `network_netmask_match` | byte masks against bits of addresses, under stated laws of the address functions |
| C58, C59 | pam_access: `user_match`, `from_match`, `remote_match` | one theorem for each form of word |
| C42 | pam_limits: `process_limit`, `parse_config_file`, `setup_limits`, `pam_sm_open_session` | grammar of lines as a relation; a fold over the entries ends with the last entry of the most specific kind (invariant); end-to-end for open_session |
| C60 | pam_limits: `parse_uid_range` and the domain part of `parse_config_file` | forms of domains as an inductive relation, equivalence with the code |
| C61, C62, C63 | pam_limits: `pam_sm_open_session`, `check_logins`, `setup_limits`, `_pam_parse` | decision logic over all tables; counting loop against a plain count |
| C64, C67 | pam_pwhistory: `save_old_pass` and its helpers, as a list of operations on three files | files as lists of lines, rewriting in place; every prefix of the operations |
| C65 | pam_pwhistory: `check_old_pass` and all sequences of calls | invariant over an inductive relation of runs with crash points |
| C66, C68 | pam_pwhistory: `pam_sm_chauthtok`, `parse_option`, `parse_config_file` | induction over the loop; last argument wins |
| C69, C70 | pam_unix: `verify_pwd_hash`, `create_password_hash`, `bigcrypt`; crypt(3) a parameter with three laws | decision logic against an inductive relation; round trip under the laws |
| C71 | pam_unix: `check_shadow_expiry` with signed overflow as its own outcome | decision table over the days, monotonicity |
| C72 | pam_unix: `_set_ctrl` with the bits and masks of `unix_args` | bits of the word, last argument wins |
| C73 | unix_chkpwd: all of `main`, with the three user and group ids of the process | non-interference; decision logic; the read of the password as in C09 |
| C74, C75 | pam_unix: `_unix_verify_password` and the fork, exec and pipe around the helper, each step of which may fail | decision logic for the run without failures, soundness for every run, induction over attempts |
| C76, C77 | pam_unix: `pam_sm_acct_mgmt`, `pam_sm_authenticate`, `pam_sm_setcred`, `_unix_blankpasswd` | decision logic from C71, C73 and C74 |
| C78 | pam_unix: `unix_update_passwd`, `unix_update_shadow` as operations on a file, its replacement and their attributes; each may fail | invariant along every prefix of the operations |
| C79 | pam_unix: `_do_setpass` and the part of it `unix_update` shares, over the three files | C78 for each file, composed; then C74 for the password that is right afterwards |
| C80 | unix_update: all of `main`, the lock, the reading of both passwords | decision logic, bracketing of the operations by the lock |
| C81 | pam_unix: `pam_sm_chauthtok`, its two phases and what they call | decision logic from C74, C76, C79 and C82; induction over attempts |
| C82 | pam_unix: `check_old_password`, `save_old_password` | refinement of the file to a list of hashes per user, induction over histories |
| C83 | pam_listfile: all of `pam_listfile`, over an abstract account database | options refined to "the last such word", then decision logic |
| C84 | pam_wheel: all of it, with pam_modutil_user_in_group_* | options as membership in the list of words, decision logic |
| C85, C86 | pam_nologin and pam_shells: all of `perform_check` | decision logic; lines of a file as in C31 |
| C87 | pam_securetty: all of `securetty_perform_check`, reads beyond the end of a string as an outcome of their own | induction along the command line; refutation for the lines that are misread |
| C88 | pam_usertype, pam_rootok, pam_localuser: all of them; `strtoul` and `pam_modutil_search_key` as in C32 and Core/Strtol | decision logic, C31 |
| C89 | pam_env: `_parse_line`, `_expand_arg`, `_check_var`, `_parse_config_file`, `handle_env`, on top of the lines of C14 and the environment of C17 | refinement to written entries and an expansion relation, induction over the lines |
| C90 | pam_env: `_parse_env_file` | refinement; every line has exactly one meaning |
| C91 | pam_env: `handle_env` and `_pam_parse` with every read as a function of privilege and path | independence of all other reads; totality |
| C92 | `sha1.c` of pam_timestamp, on bytes and 32-bit words; a write outside a buffer is `none` | the context holds the digest of the whole blocks and the rest of the message: invariant of `sha1_update`; the rounds are those of FIPS 180 by induction |
| C93 | `hmac_sha1_generate` | from C92 |
| C94 | `md5.c` (little-endian words; the input buffer starts with anything) | the same invariant with the count of bits; the 64 steps are those of RFC 1321 four at a time |
| C95 | `md5_crypt.c` | from C94; the loops over the password give the closed forms of the specification; the 22 characters determine the digest |
| C96 | `pam_sm_authenticate` of pam_timestamp and what it calls, in the build without OpenSSL and logind; the system calls are parameters, undefined behaviour is `none` | each check is equivalent to its part of the specification (`Timestamp/Spec.lean`), then decision logic |
| C97 | `pam_sm_open_session`, with every short write | from C96, C93 and the lengths of the parts; the separators make the path injective |
| C98 | `hmac_key_create`, `hmac_key_read` with all failures | induction over the runs |
| C99 | `main` of pam_timestamp_check without `-d` and `-k` | as C96 |
| C100 | `misc_conv`, `read_string`, with standard input as a list of events (bytes, end of file, interruption) | induction over the messages against the relation `Answered` |
| C101 | the same, with the terminal's echo flag noted at every `read` | induction over the rounds and the messages |
| C102 | the same, with the clock and the alarms as input | partial: false if the alarm goes off between reading and the test for it |
| C103 | `pam_misc_setenv`, `pam_misc_paste_env` over the model of C17 | from C17's representation lemmas, induction over the list |
| C104 | `pam_modutil_sanitize_helper_fds` over a table of descriptors with lowest-first allocation | each call's effect on every descriptor; partial without `close_range` |
| C105 | `mkhomedir_helper.c` over a file system as a map from paths, with lists of failures | mutual induction over the source trees against the merge `both`; partial: an entry that cannot be looked at is skipped |
| C106 | the same | frame relation `Adds` through every function, for every list of failures |
| C107 | the arguments that `pam_mkhomedir.c` prepares and `main` parses | `strtoul` with base 8 and 0 against octal numerals; partial: a umask without leading 0 is read as decimal |
| C108 | `pam_userdb.c`: options, lookup, authentication; the database as a list of pairs, crypt(3) as a parameter | equivalence with `Fits`, by induction over the database; partial: with key_only names and passwords are not told apart |
| C109 | the same, `pam_sm_acct_mgmt` | the cases of the lookup; partial: unknown_ok does nothing and a missing db= is a null pointer in account management |
| C110 | `argv_parse.c` with its buffer and positions | refinement of `Spec.Fields` by induction over the line, totality of the specification, bound of the buffer, round trip |
| C111 | `pam_namespace.c`: lines, variables, methods, flags, `create=`, lists of users, files | refinement of `Spec.Expands`, `Spec.Stripped`, `Spec.Parts`; acceptance as an equivalence; partial: empty methods and empty home directories are bad accesses |
| C112 | `ns_override`, `setup_namespace`; results of the operations are a function of the history | trace of operations equals `Spec.session`, by induction; partial: unmnt_only |
| C113 | `poly_name`, `set_polydir_paths`; MD5 as a parameter | names are injective by cases of their length; partial: cut and joined names |
| C114 | `secure_opendir` on a file system that is another one at each system call; `protect_mount` does nothing | invariant: the descriptor is a directory of the system or links are not followed any more; partial: links of the system into directories of users |
| C115 | `create_instance` with the state after each system call, `check_inst_parent` | cases of the failures; partial: crash |
| C116 | `pam_sm_close_session`, `orig_namespace`, `cleanup_tmpdirs` | induction over the directories; partial: nothing is removed without the option |
| C117 | `pam_exec.c`: options, child, messages; results of system calls and of the command are given | split of the arguments by induction (`Spec.Line`), then cases of the failures |
| C118 | the password and environment of the child | `Spec.Getenv` over lists of variables; partial: long passwords, variables of the handle with the names of items |
| C119 | handler and number of open descriptors | cases; partial: failures before the command is run |
| C120 | `pam_xauth.c`: `check_acl`, `pam_sm_open_session` as a list of steps with the user each is done as; files, accounts, `fnmatch` and xauth are given | lines of a file (`TextLine`), then cases of the session |
| C121 | options of pam_xauth | law for an argument appended to any list; partial: numbers below 2³² |
| C122 | the kept name and `pam_sm_close_session` | cases; partial: privileges regained, opened once |
| C123 | `pam_sm_open_session` | cases; partial: xauth can be run |
| C124 | `pam_ftp.c`: `lookup`, `_pam_parse`, `pam_sm_authenticate`, `strtok_r`; the conversation is a function | words of a list by induction; partial: no comma at the head of the list, answer not NULL |
| C125 | `pam_rhosts.c`; `ruserok` and accounts are functions | equivalence by cases |
| C126 | pam_canonicalize_user, pam_deny, pam_permit, pam_debug | decision logic; first argument of a list by induction |
| C127 | `pam_faildelay.c` with `strtoull`/`strtol` as numbers, `pam_modutil_search_key` | induction over arguments, C32 for the file; partial: no blank at the end of the line |
| C128 | `pam_umask.c`: `parse_option`, `set_umask`, `setup_limits_from_gecos`, `pam_sm_open_session` as a list of acts | induction over arguments and over the fields between commas; partial: values are numbers in range |
| C129 | `pam_echo.c` with buffers of fixed size | loops are `take` of the whole text, by induction |
| C130 | `pam_issue.c` with the growing buffer and the static flag; what the system says is given | induction over the text with the invariant that the NUL fits |
| C131 | `pam_motd.c`; `open`, `scandir`, `lstat` and privileges are given | lists by induction, sorted without repetition; partial: no empty element in the list of directories |
| C132 | `pam_loginuid.c`; the proc files and the answers of the audit system are given | decision outright; the loop over answers by induction |
| C133 | `pam_keyinit.c` as a machine of calls over threads, with every failure of the system given; one call is one step | invariant of histories: what the thread keeps agrees with what it asked of the kernel |
| C134 | the same | the same, with the counter as opened less closed sessions; partial: false for sessions not opened, or closed in another thread |
| C135 | the same | the same; partial: closing a session does not report it |
| C136 | the same | the same; partial: false in a thread that has a keyring |
| C137 | `pam_mail.c`; `stat`, `scandir`, privileges and the conversation are given | arguments by induction, folder and status outright; partial: false for an empty dir= after another |
| C138 | the same | all paths; partial: MAIL stays when privileges cannot be dropped |
| C139 | `pam_lastlog.c`; the file as bytes, locks, limits and the number of bytes written are given | bytes outside by cases of the write; round trip of the record |
| C140 | `pam_auth`, `_pam_auth_parse`, `get_lastlog_uid_max` | all cases; partial: false from 2038 on |
| C141 | `last_login_failed`; btmp is a list of entries | loop by induction; partial: false beyond LASTLOG_UID_MAX, for names over 32 bytes |
| C142 | `pam_tty_audit.c`; netlink is given by its outcome, `fnmatch` is a parameter | patterns outright, arguments by induction |
| C143 | the same, as a pair of calls over the status of the kernel and what the handle keeps | all paths |
| C144 | `pam_sepermit.c`: `sepermit_match`, `pam_sepermit`; libselinux and groups are parameters | lines outright, the scan by induction |
| C145 | `sepermit_lock`/`sepermit_unlock` as events over the record locks of the system and the data of the handles | invariant over histories |
| C146 | `pam_setquota.c`: `str_to_uid`, `parse_params`, `pam_sm_open_session` | arguments by induction, the rest outright |
| C147 | the search through the mounts | induction over the mount table |
| C148 | `str_to_dqb_num`, `parse_dqblk`; `quotactl` by what it reads and whether it succeeds | arguments by induction, then all paths |
| C149 | `pam_modutil_get{pwnam,pwuid,grnam,grgid,spnam}` over the model of module data; the C library's lookup is any function of attempt and size of the buffer | decision logic; a free name by counting |
| C150 | the same, `pam_modutil_getlogin`, and any `pam_set_data` in between | invariant over sequences of events |
| C151 | `pam_vprompt` with the events on memory | decision logic over all cases |
| C152 | `pam_audit.c`, the end of `_pam_dispatch`; libaudit by what it answers | decision logic; induction over transactions |
| C153 | the grantor flags of `_pam_dispatch_aux` with `_pam_list_grantors` | invariant of the walk |
| C154 | `_pam_load_module` with the table of modules and what is opened and closed | invariant over histories |
| C155 | the same with the owners of module data | invariant; counterexample with a second service name |
| C156 | `parse_kernel_limits` with its two macros (positions as the reversed line), `value_from_file` | round trip with the report of the kernel (`Spec.report`), composed with the session of C42 |
| C157 | `main.c` of faillock: arguments, `do_user`, `do_allusers`, both formats; the files of a directory are a function of the user | arguments are exactly the lists of options (`Spec.Says`, both directions); induction over the directory; partial: what it exits with for all users |
| C158 | `run_save_helper`, `run_check_helper`, `pwhistory_helper.c`; the pipe is a schedule of reads, as for C29 | equal to the model without SELinux (`chauthtok` of C40), by induction over the questions; the password through the pipe by C29, the number by the lemma on decimal digits; partial: passwords of more than 512 characters |
| C159 | `config_context`, `context_from_env`, the choice in `compute_exec_context`; libselinux is a policy: functions that answer about contexts | induction over the rounds of questions; for the variables an equivalence with `RoleIs` and `RangeIs` |
| C160 | the rest of `pam_selinux.c`; the state is the context for programs and keys, the labels of files and what the handle keeps | invariant over all histories of calls (`Kept`, `Safe`); partial: the context for keys is not put back, and while not enforcing a NULL label is handed to `setfilecon` |
| C161 | `_pam_rand`, `_pam_compute_delay`, the end of `_pam_await_timer`; a floating-point operation is the one on rationals followed by an arbitrary monotone rounding that keeps halves of integers up to 2^53 | bounds carried through each rounding step, then the floor |
| C162 | `process_args`, `need_a_filter`, the entry points of pam_filter; the buffer of ARGS with its size | induction over the arguments against `Asks`; equivalence for starting; partial: for account management TYPE is `setcred` |
| C163 | `set_filter` with the outcome of each system call, and the two loops of `wait` over a list of reports | induction over the reports for histories of the two processes; case analysis for the state; partial: a report of another process or an interruption ends the first process at once |
| C164 | `main` and `do_transpose` of upperLOWER with a buffer that is used again | invariant over all turns of the loop |
| C165 | `_unix_run_update_binary` and `_do_setpass` with SELinux in force, over the model of unix_update | equality with the model of the change by the module, through C29 (the pipe) and the round trip of the number; partial: false for a change by root that asks for no old password while old ones are remembered |
| C166 | the session service of pam_unix over the model of its options | case analysis over C72; the line is taken apart at its brackets |
| C167 | `set_alarm`, `reset_alarm`, and `read_string` and `misc_conv` with the alarm clock, the function for SIGALRM and the blocked signals | refinement of the model of C100-C102, invariant over rounds and messages; partial: an alarm of the application is lost if there is a time limit |
| C168 | `check_safe_path` over any `lstat` and `stat` | induction on the length of the path; partial: directories with the sticky bit count as safe |
| C169 | `inst_init`: choice of the script, the child, the ways to end | decision logic stated outright; partial: the exit status is not looked at |
| C170 | `ns_setup`, `create_polydir`, with the models of `poly_name`, `check_inst_parent` and `create_instance` of C113 and C115 | cases over the calls; partial: a script that fails leaves the mount, a directory that cannot be made leaves the label for new files |
| C171 | `cleanup_tmpdirs` on the entries that `ns_setup` leaves | induction on the entries; partial: it stops at the first process that cannot be started, does not look at the status of rm, and can remove a directory called XXXXXX that it did not make |
| C172 | the two example files of pam_faillock(8) as texts, read by the model of `_pam_init_handlers`, walked by that of `_pam_dispatch_aux`, with the model of pam_faillock as one of the modules | evaluation of the texts in the kernel, then refinement to the abstract stack and to the events of C38, induction on the attempts; partial: the clock does not go back, `deny` is at most 1024, files work, no module returns PAM_INCOMPLETE; that root is locked and that only wrong passwords count is false |
| C173 | the files for `other` as texts, the readers, the dispatcher, pam_deny and the message of pam_warn | evaluation of the texts in the kernel, then an abstract walk along the classic control words (`Stack/Walk.lean`), to which the dispatcher is shown to refine; `setcred` and `close_session` are not in the statement, because they follow the path frozen by the function before |
| C174 | the example texts of three manual pages with the models of pam_rootok, pam_wheel and pam_localuser; pam_unix is any answer | as C173, with the theorems about the modules (C86, C88); that pam_localuser's example does what its comment says is false |
| C175 | conf/pam.conf as a text, read and walked by the models of libpam, with the models of pam_listfile, pam_shells, pam_securetty, pam_nologin, pam_wheel, pam_rootok, pam_deny; pam_unix and three more are any answers | evaluation of the text in the kernel, then a general theorem about classic stacks whose modules do not influence each other (`Stack/Pure.lean: walk_success`), with the theorems about the modules; partial: the kernel's command line is not one that pam_securetty misreads (C87), no module asks to be called again |
| C176 | pam_unix's authentication as a program that calls the interface (`Whole/Unix.lean`), run by the models of pam_start, pam_authenticate, the configuration reader and the dispatcher | a call on a ready handle is a walk over the lines (`Whole/Call.lean`), the program's run is computed (`Whole/Runs.lean`, `Whole/AuthCall.lean`), then C77; hypothesis: the helper ends |
| C177 | the same for account management, with the messages about expiry | as C176, then C76; the data left by pam_authenticate are followed through the handle |
| C178 | sequences of calls on one handle | induction over the history with the invariant that the count kept with the handle is the number of failures since the last success, then C75 and C77 |
| C179 | pam_unix's password function as a program that calls the interface (`Whole/Change.lean`), run by the models of pam_start, pam_chauthtok, the configuration reader and the dispatcher; the machine is part of the world and the program changes its files | the run of each pass is computed and compared with the decisions of `Unix/Update.lean` (`Whole/ChangePasses.lean`), the two passes are put together over the dispatcher (`Whole/ChangeCall.lean`), then C81, C70 and C176 (`Whole/ChangeProps.lean`) |
| C180 | pam_unix's pam_sm_setcred and the code kept by pam_sm_authenticate, run by the models of pam_start, pam_authenticate, pam_setcred and the dispatcher | the walk over one line is computed for any module (`Whole/CredCall.lean`); induction over the calls of pam_setcred (`Whole/CredProps.lean`) |
| C181 | the dispatcher's two modes over stacks of classic lines and any modules | both walks go line by line over the same lines; invariant: the replay is not ahead of the first walk (`Dispatch/Denied.lean`); the cells survive any other calls in between (`Whole/DeniedProps.lean`) |
| C182 | the dispatcher over stacks of classic lines, any modules as programs over the library's calls, pam_unix among them | invariant of the walk: once a guarded line has failed the verdict stays against (`Dispatch/Guard.lean`); what any module can do to the handle is bounded by a relation closed under all calls (`Whole/GuardCall.lean`); pam_unix is then computed in the state it finds (`Whole/GuardProps.lean`) |
| C183 | pipe, dup, dup2, fork over a table of descriptors (`Helper/Model.lean`), on top of the model of pam_modutil_sanitize_helper_fds; each system call may fail | what each step does to every entry of the table; ends of different pipes are told apart by the files they refer to; the loop of move_fd_to_non_stdio ends since each round fills one of the three low descriptors |
| C184 | the same functions, in the application's process | the entries pipe made were free before and are closed again; false of pam_xauth and pam_exec when fork fails (counterexamples), proved where there was a new process |
| C185 | both passes of pam_chauthtok over stacks of classic lines, any modules, pam_unix's function for passwords as a program over the library's calls | the walk's invariant of C182 for the first pass; pam_unix computed in any state (`Whole/GuardChange.lean`): its answer is never PAM_IGNORE unless the application's is, and success means C81's condition for the password it was given |
| C186 | `match_process_uid`, `check_running` over the text of /proc, with `sscanf` and `atoi` | the text the kernel writes is parsed back, by induction over lines and directory entries; the loop of `sepermit_unlock` by induction over the looks |
| C187 | `_strbuf_*` with 64-bit sizes and an arbitrary realloc, `_expand_arg` with the value cut and written over in place | an invariant of the buffer kept by every addition; refinement to the text-level `_expand_arg` of C89 by induction over the value |
| C188 | `nl_send`, `nl_recv`, `nl_recv_ack` byte for byte, `recvmsg` with MSG_PEEK, and the module on top of them | induction over the datagrams; refinement to the model of C142 and C143 |
| C189 | `secure_opendir` with its descriptors, `protect_mount`, `secure_umount`, `secure_try_rmdir`, `unprotect_dirs`; any call fails | invariants by induction over the path and over the list |
| C190 | `get_user_data` with its buffers, whose contents are arbitrary before | cases, with the length of what `strncat` writes |
| C191 | `root_shared` on the text of mountinfo, PAMNS_MOUNT_PRIVATE, the calls of `setup_namespace` | round trip from all lists of mounts; induction over them |
| C192 | `cwd_in`, the cut of `poly_parent` | induction over the path |
| C193 | who owns the lists of pam_namespace: the functions or the handle, through `pam_set_data` | invariant that counts each list, by induction over the calls |
| C194 | `pam_vsyslog` with a small `printf`, `pam_strerror` | against a relation that says what a format means; the line is parsed back |
| C195 | `pam_set_data`, `pam_get_data`, `_pam_free_data` with cleanup functions as programs and entries with addresses | invariant relative to the entries being cleaned, by induction over the nesting depth |
| C196 | the descriptor tables of the three processes of pam_filter, on the process of C104 | each step is stated as an equation for every descriptor |
| C197 | `user_lookup` of pam_userdb with requests for memory that may fail, and a trace of what is opened, copied, wiped and freed | a small machine that checks the trace; induction on the database |
| C198 | the pointers of `VAR` with a heap of blocks; a wrong use of memory is an outcome of its own | an invariant that ties each pointer to a value of the model of C89, kept by every step; simulation |
| C199 | the records of failures that pam_unix keeps with the handle, and the lines it writes at a failure and at the end | an invariant ties the records to the history; induction on the attempts |
| C200 | all calls of pam_stress, with any conversation function | the options by induction on the arguments; each call stated outright |

Properties found false of the code are proved false by a concrete witness, and the strongest
true form is proved under a `_partial` name; these are listed in "Findings" below.

## Findings

Behaviour of the code found while modelling; where a listed property is false of the code this is
proved by a `_counterexample` theorem.

Dispatcher:
* C07 as stated is false: a second function (setcred, close_session) answering PAM_IGNORE, or a
  module that answered -1, makes the walk leave the frozen chain
  (`C07_frozen_chain_counterexample`).
* C08: in a replayed chain (setcred after authenticate) an out-of-range module answer recorded by
  the first call can be returned (`C08_replay_out_of_range_counterexample`).
* An out-of-range answer counts as `bad` even on `optional`/`sufficient` lines, and does not stop at
  a `requisite` line.

Configuration:
* C16 as stated is false: a line with an illegal type and control `optional` (or `sufficient`) does
  not make the call fail; a line with an illegal type and control `include` is read as an include.
* A read error is treated like the end of the file, so the rest of the file is silently dropped.
* A line consisting of CR LF counts as an entry with an illegal type.
* A comment line ending in a backslash is not continued.
* `#` ends a line also inside brackets; an argument that ends in a backslash and contains blanks
  cannot be written.
* For a service called `other` the file is read twice, so every module is listed twice.
* `substack` of a name without a base name aborts reading of the file.
* After an entry whose path names no module, the lists of first and second functions have different
  lengths, so the frozen chain is misaligned.

Handle and interface (model built without libaudit and without prelude):
* With libaudit `_pam_auditlog` can replace the result of an operation; not modelled.
* The conversation function runs while the library counts the caller as a module, so the
  application can read the tokens from inside it.  Calls from conversation or cleanup functions back
  into the library are not modelled.
* C17: pam_putenv that fails for lack of memory while replacing a variable leaves it unset;
  pam_getenv of a name with `=` reads part of a value.
* C22: if the configuration fails to reload (after a change of PAM_SERVICE) while an update is
  suspended, the update is later resumed with PAM_PRELIM_CHECK
  (`C22_failed_reload_counterexample`).
* C24: a refused pam_authenticate or pam_chauthtok still wipes the tokens and ends the delay requests
  of the suspended operation; a refused pam_chauthtok resets the phase flag.
* If the application changes PAM_SERVICE while an operation is suspended, the saved walk is continued in
  another stack (`none` of the model: possible access outside the substack table).
* C25: the delay is not reset, so a request for 0 makes an earlier delay count again, and a delay
  function is called with the delay of an earlier operation
  (`C25_stale_delay_counterexample`, `C25_stale_delay_function_counterexample`).
* C26: if saving the prompt of a suspended question fails for lack of memory, pam_get_user gives
  PAM_ABORT for ever.
* C27: `authtok_verified` is reset only with the default prompts, so pam_get_authtok_verify skips the
  confirmation of a second password on the same handle (`C27_verify_skipped_counterexample`).
* C44: pam_set_item(PAM_SERVICE) does not cut the name at slashes
  (`C44_set_item_counterexample`).
* pam_set_item of a token that fails for lack of memory leaves an empty token; of PAM_XAUTHDATA leaves
  none.

Module helpers (libpam_internal, pam_modutil):
* C32: blanks between the value and a comment stay in the value
  (`C32_trailing_blanks_counterexample`); keys are compared without regard to case.
* C33: pam_modutil_drop_priv changes the file system ids and the supplementary groups only.  When
  pam_modutil_regain_priv fails, it frees the saved groups but still counts as dropped; if it is
  called again it reports success and leaves the process without supplementary groups
  (`C33_regain_again_counterexample`).  A structure can be used for one drop only
  (`C33_structure_used_up`).

libpamc:
* C34: a reply whose length field is below 5 is not rejected: below 4 the client writes behind the new
  block, with 4 the short frame is handed to the caller, and 2^32 - 1 wraps to an allocation of 0
  bytes (`C34_short_frame_counterexample`).  A reply with control byte 0 turns into a FAIL prompt.
* A failed SELECT leaves the previously selected agent selected.
* C49: `__pamc_add_node` counts only the root, so pamc_list_agents overruns its list or ends the process
  whenever two agents are installed (`C49_two_agents_counterexample`).
* C50: `__pamc_valid_agent_id` increments its index twice per character
  (`C50_agent_name_counterexample`).
* An empty component inside PAMC_AGENT_PATH means the root directory.

pam_time, pam_group:
* C35: an operator at the end of a field is ignored, so "a &" matches what "a" does
  (`C35_malformed_counterexample`, `C35_dangling`).
* C36: when a window spans midnight its end minute is included, otherwise not
  (`C36_end_counterexample`); a range without a proper end matches always (`C36_bad_time`).
* C52: when the text after a star is longer than the string, the comparison starts before the string
  (`C52_name_counterexample`): "*ttyxx" on terminal "a" reads out of bounds.  What stands before and after the star may
  overlap in the string.
* C53: a last rule without a newline is taken as one that is never in time
  (`C53_last_line_counterexample`); a file that ends after the third semicolon of a rule (the fourth for pam_group)
  makes the module read through a null pointer (`C53_end_counterexample`); an unreadable file or a
  read error means no rules, so access is granted (`C53_no_file`, `C53_error_counterexample`).
* C54: in the list of groups the character after an operator is lost (`C54_operator_counterexample`).

pam_succeed_if:
* C37: `in` and `notin` search a text in a colon-separated list; a text that has colons itself, such as an IPv6
  address as rhost, can be found across elements or be missed (`C37_list_counterexample`).
* Without any condition the module succeeds (`C37_no_condition`).  Words that are names of options are never operands,
  so `user = debug` is an incomplete condition.  Words left over are an error only if all conditions are met.

pam_faillock (model built without libaudit; the tally file is a list of whole records):
* C38: a record dated later than now (clock set back) no longer counts (`C38_clock_counterexample`); with `deny` above
  1024 no account is ever locked (`C38_large_deny_counterexample`); a tally file that may not be opened
  means "not locked", and the failure is not recorded (`C38_no_permission`).  The account phase clears the tally even of
  a locked account.
* C39: a process that finds no tally file does its check without a lock, so a failure recorded meanwhile is overwritten
  (`C39_missing_counterexample`); the time is read before the lock is taken, so a process that is overtaken finds a record
  dated in its future and discards it (`C39_overtaking_counterexample`).
* C56: numbers out of range wrap: `deny=65536` is 0, which switches locking off, `deny=-1` is 65535, and a time of
  4294967300 is 4 (`C56_range_counterexample`).

pam_access (model built without libaudit, with netgroups; the resolver and the address functions are parameters with stated
laws; `Access/Example.lean` is a system that satisfies them):

* C40: the list of addresses of the origin is looked up once, by whichever word comes first. A word such as `192.` looks it
  up with AF_INET; later words then do not see the IPv6 addresses of the host, so a rule that denies a network is passed
  over (`C40_cache_counterexample`).
* C40: a last line without a newline is passed over with a log message; `-:ALL:ALL` at the end of such a file denies nobody
  (`C40_newline_counterexample`).
* C40: the permission is read from the first character of the line and not of the first field: `:+:ALL:ALL` denies
  (`C40_leading_separator_counterexample`). Of the first field only the first character is looked at (`+foo` is `+`).
* C41: `/0` does not stand for every address but for the network address only (`C41_zero_counterexample`). A netmask of
  the other family is ignored in the same way. The number may be written in octal or hexadecimal.
* C41: 127.0.0.1 and ::1 match each other whatever the mask.
* C59: the word LOCAL lets in a remote host that is called "local" (`C59_local_counterexample`).
* If `getnameinfo` fails for a word while the origin is an address, an array that was never written to is compared
  (`Sys.garbage`).

pam_limits (model for 64-bit Linux without logind and libaudit; /proc/1/limits and the user and group database are parameters):

- An entry of type `-` is dropped as a whole when a more specific entry has set the soft limit alone, so its hard limit is lost
  (`C42_hard_counterexample`): `alice soft nofile 150` and `@staff - nofile 300` leave the old hard limit.
- maxlogins and maxsyslogins share one limit, and which of the two it is follows from the last line that names either, even if
  that line is not the one that counts or its value is not a number (`C62_mixed_counterexample`).
- The group of a `%group` entry is that of the last `%` entry read for the user, whatever its item, also if it does not count.
- priority and nonewprivs ignore how specific an entry is: the last one counts (`C63_priority`, `C63_nonewprivs`). A wrong
  value of nonewprivs clears it.
- A line `%:1000 -` or `%1000: -` frees users by their user number, although `%` is about groups (`C60_percent_counterexample`).
- Numbers of users and groups count modulo 2^32; `10k` is read as 10, negative limits wrap around to large ones; a value that
  would overflow when scaled means no limit (`Means`).
- A no-limit line in any file drops every limit, also those of set_all (`C61_free`).

pam_pwhistory (`crypt`, the user database and the results of system calls are parameters; built without SELinux, where a helper
does the same; the passwords typed are parameters as `pam_get_authtok` gives them):

- After lowering `remember`, the current password is recorded twice and older ones than needed are forgotten
  (`C64_lowered_counterexample`).
- A last line without newline is glued to a new entry (`C64_newline_counterexample`).
- Nothing locks the file: of two changes at the same time one entry is lost (`C64_concurrent_counterexample`).
- The result of the final rename is ignored: success although nothing was recorded (`C67_rename_counterexample`).
- A history that cannot be opened when it is consulted accepts every password (`C65_unreadable_counterexample`).
- Numbers of the configuration file are not limited and wrap around: 4294967295 checks but never records; on the command line
  `remember=4294967296` switches the module off (`C68_range_counterexample`, `C68_negative`).

pam_unix:

- The mask of the hash methods (015660420000) also clears the bit of `quiet`: `quiet sha512` is not quiet (`C72_quiet_counterexample`).
- Words match by prefix (`debugfoo` is `debug`); `minlen=x` sets the least length to 0 and `remember=x` switches remembering off, even
  after a valid value (`C72_word`, `C72_minlen`, `C72_remember`).
- A traditional hash looks at eight characters of the password only (`C69_eight`).
- `nullresetok` overrides the application's PAM_DISALLOW_NULL_AUTHTOK: a user without a password whose change is enforced is let in
  without being asked for one (`C77_disallow_counterexample`).
- If the password cannot be written to the helper, or the helper fails to read it, the helper checks the empty password instead; this
  matters only with `nullok` (the second case of `C74_sound`).
- With `nullok` a shadow entry holding a hash of the empty password counts as having no password; the same hash in /etc/passwd does not
  (`NoPassword`, `C77_answer`).
- A password whose age is waived by `no_pass_expiry` while its change is enforced is still reported as one that expires in 0 days.
- With `broken_shadow` an expired account is let in if the helper cannot be run (`C76_sound` needs its absence).
- `nullresetok` makes the check for an empty password do more work for users that exist (`C77_same_work` needs its absence).
- `save_old_password` forgets that a line could not be written if the user has no entry (or it comes later): the truncated file replaces
  the complete one, success is reported, and passwords of other users are forgotten (`C82_remember_counterexample`).
- The last line of the file of old passwords, if it has no newline, loses the last character of its last hash when it is rewritten.
- A malformed line after the user's entry in that file makes `save_old_password` add a second entry.
- Only MD5 hashes are recognised in that file: entries pam_pwhistory wrote into the same file do not match any password.
- With remember=0 an entry is added if there is none, and removed by the next change.
- Lines of /etc/passwd and /etc/shadow the C library does not parse, comments among them, are dropped when the file is rewritten.
- If `fdopen` fails the temporary file is left behind.
- In the second phase the old password is checked again only if the application still has it: without PAM_OLDAUTHTOK the module trusts
  that the first phase checked it (`C81_sound` says so: the old password is right *if there is one*).
- The first phase succeeds for an account without a password without looking at its age (`C81_prelim`).
- `unix_update` stores whatever it is given as a hash; that it contains no colon or newline is left to the C library.

Small modules:

- pam_listfile: a later `item=` does not take back an earlier `item=group` or `item=shell` (`C83_item_counterexample`). Mistakes found before
  `onerr=succeed` is read are answered with an error. A read error counts as the end of the list, so `sense=deny` succeeds. Between
  `lstat` and `fopen` the file may change.
- pam_wheel: membership is asked about the first account with the invoker's id, not about the invoker (`C84_alias_counterexample`).
- pam_nologin: a nologin file that exists and cannot be opened is ignored; `pam_setcred` ignores it always.
- pam_securetty: the first eight characters of the kernel's command line are taken for `console=` (`C87_cmdline_counterexample`); a shorter
  line is read beyond its end (`C87_short_counterexample`); `pts/N` is compared with the terminal instead of the line of the file
  (`C87_pts_counterexample`); an empty line makes the terminal without a name safe (`C87_empty_line_counterexample`).
- pam_usertype: negative numbers in /etc/login.defs are taken modulo 2^64.
- pam_env: after a value in quotes, a `DEFAULT=` without a value makes an empty variable instead of none (`C89_quote_counterexample`). A bad line is
  ignored, but one at the end of the file makes the module return PAM_ABORT with the variables set (`C89_last_line_counterexample`), and so does
  a last line that removes a variable that is not set. Blanks or a comment after the last setting make the whole line bad
  (`C89_comment_counterexample`). Without pam_env.conf, /etc/environment is not read (PAM_IGNORE). In /etc/environment a value in quotes that is
  followed by a blank keeps its last quote.
- pam_timestamp: `sha1_update` carries at most 1 into the upper half of the length, so one part longer than 2^32 bytes gives a wrong length and with
  it a wrong digest (`C92_long_part_counterexample`); no caller passes such a part.
- pam_timestamp: `check_dir_perms` copies a directory of 4096 bytes or more into its buffer without a NUL and gives it to `lstat`
  (`C96_long_dir_counterexample`); for a relative directory that does not exist it looks at a `struct stat` nothing was written to
  (`C96_relative_counterexample`). Both need an odd `timestampdir=`. `timestamp_timeout=` of 2^62 or more makes `2 * interval` overflow
  (`C96_timeout_counterexample`), and an empty `timestamp_timeout=` is 0.
- pam_timestamp: logins after 2038 count as negative times, so any time stamp is later than the login (`C96_2038_counterexample`); an entry with
  the time 0 makes the user count as not logged in (`C96_epoch_counterexample`).
- pam_timestamp: with a ':' in the name of a terminal two requests share a file (`C97_colon_counterexample`). PAM_USER goes into the path
  without a check for '/', unlike PAM_RUSER (`C97_slash_counterexample`); the time stamp in such a file still has to name that path.
- pam_timestamp: creating the key is not atomic: a failure after `open` leaves a key file that is too short, which is never repaired; it fails
  closed (`C98_short_key_locks`).
- pam_timestamp_check reports success on the modification time alone, without owner, contents or MAC (`C99_weaker_counterexample`).
- misc_conv: an answer that does not fit into the 512 bytes of the buffer is cut, and from a file or pipe its rest answers the next prompt
  (`C100_long_line_counterexample`). When a conversation fails after a binary prompt was answered, the free function for binary prompts gets the
  prompt instead of a pointer to it (`C100_binary_counterexample`).
- misc_conv: if the alarm goes off after `read` returned and before `expired` is tested and the time is up, `read_string` returns the number of bytes with
  a NULL string: the conversation succeeds without an answer (`C102_race_counterexample`). A limit 2^31 seconds or more ahead is cut to a negative `int`:
  the prompt fails at once (`C102_far_counterexample`).
- pam_misc_setenv with `readonly` and a name that contains '=' overwrites a variable that is set (`C103_readonly_counterexample`).
- pam_modutil_sanitize_helper_fds: where `close_range` is missing, descriptors above 65535 stay open in the helper, as do those above a lowered hard limit
  (`C104_high_counterexample`).
- pam_mkhomedir: the module reads `umask=` as octal, its helper in C notation: with `umask=77` the home directory is private but its files get mode 0662,
  writable by everyone (`C107_umask_without_zero_counterexample`). UMASK of login.defs is used for the home directory only; its files are made
  with 0022 (`C107_login_umask_counterexample`).
- pam_mkhomedir: a home directory with a slash at its end is made as one of its own parents, for root, and the helper fails; from then on it succeeds
  (`C105_trailing_slash_counterexample`). After a failure in the middle the next run takes what is there for a complete home directory
  (`C105_incomplete_home_counterexample`). An entry that cannot be looked at is left out without an error (`C105_missed_file_counterexample`). A directory
  of the skeleton for which the vendor has a file makes the helper fail (`C105_vendor_clash_counterexample`).
- pam_userdb: with key_only the entry `ann-b-c` lets in `ann` with `b-c` and `ann-b` with `c` (`C108_key_only_counterexample`). A stored password is cut at
  a NUL (`C108_nul_counterexample`), an empty one lets the user in without a password (`C108_empty_counterexample`), and any value of crypt= that does not
  begin with "crypt" makes the stored hash the password (`C108_misspelt_counterexample`).
- pam_userdb: `unknown_ok` is parsed and never used (`C109_unknown_ok_counterexample`); without db= authentication returns PAM_SERVICE_ERR where the manual says
  PAM_IGNORE, and account management opens a null pointer (`C109_no_database_counterexample`). The option `dump` prints keys and data with `%s` although they
  need not end with a NUL (read, not modelled).
- pam_namespace: a method field that is empty (`""`) or has only colons makes `parse_method` compare a null pointer (`C111_empty_method_counterexample`). If a field begins
  with $HOME and the home directory is empty, `expand_variables` reads and writes before its buffer (`C111_empty_home_counterexample`). In `create=` a mode without a leading 0 is
  decimal and one that is no number is 0 (`C111_mode_counterexample`). The directory to be unmounted (`rdir`, with the home directory of the requesting user) is not checked for
  an absolute path or "..".
- pam_namespace: with unmnt_only, a directory that is polyinstantiated for the new user and not for the requesting one is mounted (`C112_unmnt_only_counterexample`).
- pam_namespace: names of users are cut to 255 bytes, so two users can get the same instance (`C113_cut_counterexample`); a name of 80 bytes can equal the shortened form of a longer one
  (`C113_hash_counterexample`); context and user are joined by "_", which both may contain (`C113_context_counterexample`).
- pam_namespace: `secure_opendir` follows a link of root all the way, also through directories of users (`C114_link_counterexample`); a path with two slashes in a row cannot be opened
  (`C114_double_slash_counterexample`), which happens with $HOME/x if the home directory ends in a slash.
- pam_namespace: a crash between `mkdirat` and `fchmod` leaves an instance with mode 0400 of root, which all later sessions use as it is (`C115_crash_counterexample`).
- pam_namespace: temporary instances are only removed with unmount_on_close, although namespace.conf(5) says that they are removed when the session is closed (`C116_tmpdir_counterexample`). The first
  directory that cannot be unmounted, such as a shared one that was passed over, ends the work, and PAM_SUCCESS is returned (`C116_failure_counterexample`).
- pam_exec: the environment of the handle comes before the items, so a variable PAM_USER or PAM_TYPE that an earlier module (such as pam_env) has set is what the command finds
  (`C118_environment_counterexample`). Passwords are cut to 511 bytes (`C118_password_counterexample`).
- pam_exec: if `fork` fails, the handler of SIGCHLD is not restored (`C119_fork_counterexample`); after errors, and without a command, pipes stay open (`C119_pipe_counterexample`).
- pam_xauth: systemuser= and targetuser= are cut to 32 bits (`C121_counterexample`): 4294967296 means 0, -1 means 4294967295.
- pam_xauth: if privileges cannot be regained after the file was made, it stays (`C122_regain_counterexample`); opening twice with one handle forgets the first file (`C122_twice_counterexample`).
- pam_xauth: if xauth cannot be run (no pipe or no process), nothing is handed over and the session succeeds (`C123_counterexample`); whether xauth could write the key is not looked at.
- pam_ftp: a comma at the head of users= becomes part of the name PAM_USER is set to (`C124_comma_counterexample`); an application answering the guest prompt with NULL makes `strtok_r` follow a NULL pointer (`C124_null_counterexample`). PAM_RUSER and PAM_RHOST are whatever the guest types.
- pam_faildelay: `FAIL_DELAY 3 ` with a blank at the end of the line sets no delay (`C127_blank_counterexample`, from C32).
- pam_umask: `umask=09` and a GECOS field `umask=` set the mask 0, so that files are open to everybody (`C128_not_octal_counterexample`); a large `ulimit=` overflows a signed product (`C128_ulimit_counterexample`); a large `pri=` is cut to 32 bits (`C128_pri_counterexample`).
- pam_echo: `file=` without a name tells the word `file=` itself; the result of the conversation is not looked at.
- pam_issue: the flag is kept for the process, not for the handle, so a second transaction, or a second try after a failure, never gets the issue text (`C130_once`).
- pam_motd: an empty element in motd_dir=, as a colon at its end makes, passes a null pointer to `scandir` (`C131_empty_counterexample`); a directory hides a file of the same name in a later directory, as it can be opened (`C131_directory_counterexample`).
- pam_keyinit: the counter of sessions goes below zero when a session is closed that this module did not open, and the keyring is then revoked while a session is open (`C134_unopened_counterexample`); keyrings are kept by thread and sessions counted by process, so a session closed in another thread leaves its keyring (`C134_thread_counterexample`).
- pam_keyinit: closing a session succeeds even when the effective ids could not be changed back, so the thread goes on as the user (`C135_close_counterexample`).
- pam_keyinit: a keyring that could not be linked is an error only once: the next call finds it and succeeds (`C136_unlinked_counterexample`); the second user of a thread gets the keyring of the first (`C136_other_user_counterexample`); "revoke" given once holds for every later session of the thread.
- pam_mail: an empty `dir=` after another is reported as ignored but replaces the directory, so the folder is looked for in the root directory (`C137_empty_counterexample`).
- pam_mail: MAIL is not removed when privileges cannot be dropped at the end (`C138_stays_counterexample`).
- pam_lastlog: the time of a login is kept in 4 signed bytes, so from January 2038 on every user who logs in is locked out as inactive right after (`C140_2038_counterexample`).
- pam_lastlog: `inactive=1 year` is taken as 1 day (`C140_text_counterexample`).
- pam_lastlog: a login is not recorded when the conversation fails to show the last one (`C139_unsaid_counterexample`).
- pam_lastlog: beyond LASTLOG_UID_MAX all failed logins that ever were are told as being since the last login (`C141_uid_counterexample`); names are compared in their first 32 bytes (`C141_long_counterexample`); `silent` does not silence `showfailed` (`C141_silent_counterexample`).
- pam_tty_audit: ids are cut to 32 bits, so `enable=4294967296:` is for everyone (`C142_wrap_counterexample`).
- pam_tty_audit: used twice in a stack, closing leaves the status that the first one had set (`C143_twice_counterexample`).
- pam_sepermit: a line with nothing but colons in sepermit.conf makes the module read through a null pointer (`C144_colon_counterexample`).
- pam_sepermit: with the module in the auth and in the account stack (both are offered) the second lock replaces the first one's data, whose cleanup kills the user's processes and gives up the lock: record locks belong to the process. Another exclusive login is then granted (`C145_twice_counterexample`). If /proc cannot be read an exclusive login is granted whatever runs (`C145_proc_counterexample`).
- pam_setquota: with `startuid=0` the value of `enduid=` is ignored: the quota is set for everyone (`C146_zero_counterexample`). Users outside of the range give success, where the manual page says PAM_IGNORE.
- pam_setquota: if the home directory is itself a mount point its quota is set on the file system above (`C147_own_counterexample`); a second line for `/` in /proc/mounts wins over longer directories (`C147_root_counterexample`); of two mounts on one directory the hidden one is used (`C147_hidden_counterexample`).
- pam_setquota: a limit that is not a plain number, such as `bhardlimit=20G`, is taken as 0, which removes the limit (`C148_unit_counterexample`).
- Module lookups: if the entry cannot be registered for lack of memory, the lookup tries all 2147483647 names before it gives up (`C149_spins_counterexample`); a call interrupted by a signal counts as one with too small a buffer, so that three make the lookup fail for an entry that is there (`C149_interrupted_counterexample`).
- pam_prompt: a failed conversation may still hand over an answer, and a successful one none: callers must look at both (`C151_both_counterexample`).
- Audit: a module whose success was discarded by a later `reset` is still listed as one that granted access (`C153_reset_counterexample`); an operation interrupted with PAM_INCOMPLETE is recorded as failed each time (`C153_interrupted_counterexample`).
- Loading modules: if the name of a module from an included file cannot be copied for lack of memory, loading goes on after the include, and the next module is compared with a NULL name: a crash (`C154_null_counterexample`).
- Setting PAM_SERVICE on a handle makes the next operation close all modules, but keeps their data: `pam_end` then calls cleanup functions whose code was unloaded (`C155_service_counterexample`).
- `faillock --reset` without --user exits with 0 even if the records of some users could not be cleared (`C157_exit_counterexample`); records of names that are no longer users cannot be cleared at all (`C157_reset_all`, first part).
- With SELinux, pam_pwhistory refuses a password of more than 512 characters as already used; without, it takes it (`C158_long_counterexample`). By reading only: `run_check_helper` keeps the read end of the pipe open while it writes, so a password larger than the pipe could make it wait for ever if the helper is not started.
- pam_selinux does not put back the context for new keys when the session is closed (`C160_key_counterexample`).
- If the label of the terminal cannot be read and SELinux is not enforcing, pam_selinux keeps the path of the terminal and calls `setfilecon` with NULL for the label, at opening and at closing; the two error paths behind it forget the path (`C160_label_counterexample`).
- An opening that fails in pam_selinux can leave the context for programs and the label of the terminal set (`C160_half_counterexample`).
- pam_filter tells its filter that the operation is `setcred` when it is account management (`C162_type_counterexample`).
- If `wait` is interrupted in pam_filter, or reports a child the application had before, the first process ends with status 255 while the application and the filter still run (`C163_interrupted_counterexample`).
- Where SELinux is in force and pam_unix remembers passwords, a change by root, which asks for no old password, puts the hash of an empty password into opasswd; without SELinux nothing is put there (`C165_null_counterexample`).
- If the application has an alarm running and sets a time limit for misc_conv, every prompt fails at once, and the application's alarm is moved to the time limit (`C167_pending`, `C167_counterexample`): the value of `alarm`, the seconds left of the old alarm, is taken for an error, and the new alarm is not taken back.
- A directory for everybody with the sticky bit, like /tmp, counts as safe, although namespace.init and the comment above the function say "writable by root only" (`C168_sticky_counterexample`). The directories above the target of a link are not looked at.
- The exit status of the init script of pam_namespace is not looked at, not even when the script could not be executed: the session goes on with a directory that was not initialised (`C169_status_counterexample`).
- When the init script is killed by a signal, ns_setup fails and leaves the instance mounted; when the directory itself cannot be created, the label for new files of the process stays the one meant for the directory (`C170_leftover_counterexample`).
- If the directory for temporary instances is refused, for instance because it belongs to a user, the clean-up removes whatever is called "XXXXXX" after the prefix there (`C171_template_counterexample`); one fork that fails leaves all later temporary instances behind (`C171_fork_counterexample`).
- pam_faillock(8) says that with its example configuration the account of root is locked as well. The example faillock.conf lacks `even_deny_root`, so root is never locked (`C172_root_counterexample`).
- In the second example of pam_faillock(8), an attempt with the right password is recorded as a failure if pam_nologin, pam_securetty or pam_env refuses: `sufficient` does not end the stack after a failed required line, so the authfail line is reached. Four such attempts lock the account (`C172_right_password_counterexample`).
- In the first example, the right password clears the tally even if pam_nologin refuses the login (`C172_first_partial`: the event is `success`).
- The example of pam_localuser(8), "allow only local users or group wheel to use su", does neither. pam_localuser looks at the account one wants to become, so a remote user may become any local one (`C174_remote_user_counterexample`). pam_wheel without `trust` answers PAM_IGNORE to members, so a member is refused when the target is not local (`C174_member_counterexample`).
- The shipped conf/pam.conf has no session line for ftp, imap, xdm and others, so `other` refuses every session of these services (`C175_no_session`). Its rlogin, rsh and rexec lines name pam_rhosts_auth, which does not exist any more: rlogin is always refused (`C175_rlogin`), and rsh and rexec always want the password (`C175_rsh`). Its su lines let root use su only if root is a member of the group wheel, because pam_wheel is required before pam_rootok (`C175_su` and the example after it).
- pam_unix wants to suspend an authentication if the application answers the question for the password with PAM_CONV_AGAIN (modules/pam_unix/pam_unix_auth.c:154-163), but pam_get_authtok turns every failure of the conversation into PAM_AUTHTOK_ERR (libpam/pam_get_authtok.c:176-187): an event-driven application cannot use it there (`C176_again`).
- The limit of tries is advice only: on the same handle the right password is accepted after PAM_MAXTRIES (`C178_memoryless`).
- **C180**: pam_setcred with pam_unix succeeds on a handle on which nobody was authenticated (`C180_alone`): the library has no code to replay, and pam_unix's function answers PAM_SUCCESS when no code was kept.
- **C181**: with `auth [success=1 default=ignore] A` and `auth requisite B` as the last line, pam_authenticate fails when A succeeds (a jump says nothing about the verdict), but pam_setcred then succeeds, since a replayed jump counts as a success (`C181_jump_counterexample`; pam_dispatch.c 262-278). The same holds for pam_open_session and pam_close_session.
- **C181**: a `required` module that answers -1 makes pam_authenticate fail and yet leaves its line unmarked, so that pam_setcred goes by the module's second answer (`C181_minus_one_counterexample`).
- **C182**: a module that answers PAM_IGNORE on a `required` line is passed over; pam_unix never does (`auth_any`), so its line cannot be passed over in that way.
- **C184**: pam_exec closes nothing when it gives up before it has a child: with `expose_authtok` or `stdout` the pipes stay open in the application if the second pipe, fdopen, sigaction or fork fails or if there is no command among its arguments (modules/pam_exec/pam_exec.c:213-248). When fork fails, pam_exec and pam_xauth leave the application with the default action for SIGCHLD (modules/pam_exec/pam_exec.c:245-248, pam_xauth.c:129-138). `C184_exec_counterexample`, `C184_xauth_counterexample`.
- **C185**: pam_unix returns the conversation's code for the message "Changing password for …". If that is PAM_IGNORE, pam_unix is passed over in the first pass of pam_chauthtok, and with another module that succeeds the second pass is reached, where pam_unix finds no PAM_OLDAUTHTOK and takes the new password without the current one (`C185_ignored_counterexample`). The conversation is the application's, which is trusted by the library.
- **C186**: a process of the user that has ended but is not waited for by its parent still has its file in /proc, so `sepermit_unlock`, and with it pam_end, does not return as long as it stays (`C186_zombie_counterexample`); the comment in the code admits the denial of service for forking programs. EOF of `sscanf` counts as a match in `match_process_uid` and compares a variable without a value; no file the kernel writes has such a line (`match_shows`).
- **C188**: `nl_recv_ack` does not look at a message first, and `nl_recv` fills what is missing with zeros: a datagram of 6 to 15 bytes of type NLMSG_ERROR makes it write before its buffer, and one of 16 bytes counts as an acknowledgement (`C188_short_counterexample`). The kernel sends neither.
- **C190**: `pam_sm_open_session` does not initialise its structure, and `get_user_data` appends PAM_RUSER with `strncat` to a buffer in it before the buffer is cleared. If these 256 bytes of the stack have no NUL, or a late one, memory behind the buffer is read and written (`C190_stack_counterexample`).
- **C191**: if /proc/self/mountinfo cannot be opened, the root counts as not shared (`C191_unreadable_counterexample`).
- **C192**: a process in /tmpfiles goes to / when /tmp is unmounted, since only the beginnings of the paths are compared (`C192_alike_counterexample`); and if the directory above cannot be opened, that is logged and the session goes on (`C192_ignored_counterexample`).
- C194: a line `module(service:operation): text` cannot be parsed back when the service name, which the application chooses, contains a colon (`C194_who_counterexample`); opening and closing a session have the same name.
- C195: a cleanup function that clears the name it cleans up (`pam_set_data (pamh, name, NULL, NULL)`) is called again by that very call, without end, because `pam_set_data` calls the old cleanup function before it forgets it (`C195_self_counterexample`). No module of the repository does so.
- C196: the filter's program has every descriptor that the application has open (`C196_inherited_counterexample`): pam_filter does not close them, as other helpers do.
- C196: if the second `dup2` fails, the module returns PAM_ABORT to an application whose descriptor 0 has already been replaced (`C196_error_counterexample`).
- C197: what gdbm hands out is neither wiped nor freed (`C197_library_counterexample`). With `key_only` these are the keys, with their passwords, of all users that were visited.
- C197: if there is no memory for the key, the user counts as unknown instead of the failure being reported as a system error (`C197_unknown_counterexample`).
- C198: a value that is followed by an empty one in quotes for the same setting is lost (`C198_lost_counterexample`): line 448 sets the pointer without freeing what it pointed to.
- C199: after a success, the failures between the first and the success are reported nowhere (`C199_forgotten_counterexample`): `_cleanup_failures` is silent when data are replaced. Two failures more than the first, followed by a success, leave no trace.
- C199: if there is no memory for the entry, a failure is forgotten, so that PAM_MAXTRIES is never the answer (`C199_uncounted_counterexample`); the record itself is lost.
- C200: without PAM_SILENT a message comes before the two questions, and `pam_sm_chauthtok` stores the answer to that message, which is NULL, as the new password (`C200_change_counterexample`): it uses `resp[0]` where it compared `resp[i-2]`.
- C200: with `required` the old password that was just asked for is replaced by the password of the handle, which may be NULL (`C200_old_counterexample`).

## Not modelled

Left out everywhere: the text of log and audit records, translation of messages, the clearing of memory other than where a property is about it, signals other than those
named in a property, threads, and code for other operating systems. File systems, databases, the kernel, the C library and other processes are given by what they answer;
the theorems hold for all answers. Simplifications are stated in the comment of each definition.

Function by function (the list is made from the line citations in the model; a function is listed as modelled if a definition cites lines of it, and functions that only call a
modelled one may be listed as not modelled):

| file | modelled | not modelled |
|------|----------|--------------|
| libpam/include/pam_inline.h | `pam_str_skip_icase_prefix_len`, `pam_overwrite_n`, `pam_snprintf`, `pam_read_passwords` | `pam_str_skip_prefix_len`, `pam_drop_response`, `pam_asprintf` |
| libpam/pam_account.c | `pam_acct_mgmt` | – |
| libpam/pam_audit.c | `_pam_audit_writelog`, `_pam_audit_open`, `_pam_list_grantors`, `_pam_auditlog`, `_pam_audit_end` | `pam_modutil_audit_write` |
| libpam/pam_auth.c | `pam_authenticate`, `pam_setcred` | – |
| libpam/pam_data.c | `_pam_locate_data`, `pam_set_data`, `pam_get_data`, `_pam_free_data` | – |
| libpam/pam_delay.c | `_pam_rand`, `_pam_compute_delay`, `_pam_await_timer`, `pam_fail_delay` | `_pam_reset_timer`, `_pam_start_timer` |
| libpam/pam_dispatch.c | `_pam_dispatch_aux`, `_pam_dispatch` | `_pam_clear_grantors` |
| libpam/pam_dynamic.c | – | `_pam_dlopen`, `_pam_dlsym`, `_pam_dlclose`, `_pam_dlerror` (wrappers of dlopen; the loader is any function) |
| libpam/pam_end.c | `pam_end` | – |
| libpam/pam_env.c | `_pam_make_env`, `_pam_search_env`, `pam_putenv`, `pam_getenv`, `_copy_env`, `pam_getenvlist` | `_pam_dump_env`, `_pam_drop_env` |
| libpam/pam_get_authtok.c | `get_option`, `pam_get_authtok_verify` | `pam_get_authtok`, `pam_get_authtok_noverify` |
| libpam/pam_handlers.c | `_pam_open_config_file`, `_pam_init_handlers`, `extract_modulename`, `_pam_load_module`, `_pam_add_handler`, `_pam_free_handlers` | `_pam_start_handlers`, `_pam_free_handlers_aux` |
| libpam/pam_item.c | `pam_set_item`, `pam_get_item`, `pam_get_user` | – |
| libpam/pam_misc.c | `_pam_mkargv`, `_pam_sanitize`, `_pam_set_default_control`, `_pam_parse_control` | `_pam_strdup`, `_pam_memdup` |
| libpam/pam_modutil_check_user.c | `pam_modutil_check_user_in_passwd` | – |
| libpam/pam_modutil_cleanup.c | – | `pam_modutil_cleanup`, `pam_modutil_cleanup_group`, `pam_modutil_cleanup_passwd`, `pam_modutil_cleanup_shadow` |
| libpam/pam_modutil_getgrgid.c | `pam_modutil_getgrgid` (as `pam_modutil_getpwnam`, the same code for another table) | – |
| libpam/pam_modutil_getgrnam.c | `pam_modutil_getgrnam` (as `pam_modutil_getpwnam`) | – |
| libpam/pam_modutil_getlogin.c | `pam_modutil_getlogin` | – |
| libpam/pam_modutil_getpwnam.c | `pam_modutil_getpwnam` | – |
| libpam/pam_modutil_getpwuid.c | `pam_modutil_getpwuid` (as `pam_modutil_getpwnam`) | – |
| libpam/pam_modutil_getspnam.c | `pam_modutil_getspnam` (as `pam_modutil_getpwnam`) | – |
| libpam/pam_modutil_ingroup.c | `checkgrouplist`, `pam_modutil_user_in_group_common`, `pam_modutil_user_in_group_nam_nam`, `pam_modutil_user_in_group_uid_gid` | `pam_modutil_user_in_group_nam_gid`, `pam_modutil_user_in_group_uid_nam` |
| libpam/pam_modutil_ioloop.c | `pam_modutil_read`, `pam_modutil_write` | – |
| libpam/pam_modutil_priv.c | `change_uid`, `change_gid`, `cleanup`, `pam_modutil_drop_priv`, `pam_modutil_regain_priv` | – |
| libpam/pam_modutil_sanitize.c | `redirect_in_pipe`, `redirect_out_null`, `redirect_out`, `close_fds_iteratively`, `close_fds`, `pam_modutil_sanitize_helper_fds` | – |
| libpam/pam_modutil_searchkey.c | `pam_modutil_search_key` | `econf_search_key` |
| libpam/pam_password.c | `pam_chauthtok` | – |
| libpam/pam_prelude.c | – | `pam_get_item_service`, `pam_get_item_user`, `pam_get_item_user_prompt`, `pam_get_item_tty`, `pam_get_item_ruser`, `pam_get_item_rhost`, `generate_additional_data`, `setup_analyzer`, `pam_alert_prelude`, `pam_alert_prelude_init`, `prelude_send_alert` (optional, off by default) |
| libpam/pam_session.c | `pam_open_session`, `pam_close_session` | – |
| libpam/pam_start.c | `_pam_start_internal` | `pam_start_confdir`, `pam_start` |
| libpam/pam_strerror.c | `pam_strerror` | – (a table of texts) |
| libpam/pam_syslog.c | `_pam_choice2str`, `pam_vsyslog` | `pam_syslog` (logging) |
| libpam/pam_vprompt.c | `pam_vprompt` | `pam_prompt` |
| libpam_misc/help_env.c | `pam_misc_paste_env`, `pam_misc_setenv` | `pam_misc_drop_env` |
| libpam_misc/misc_conv.c | `reset_alarm`, `set_alarm`, `get_delay`, `read_string`, `misc_conv` | `pam_misc_conv_delete_binary`, `time_is_up` |
| libpamc/pamc_client.c | `pamc_start`, `__pamc_shutdown_agents`, `pamc_end` | `__pamc_delete_path_list` |
| libpamc/pamc_converse.c | `__pamc_select_agent`, `pamc_converse` | – |
| libpamc/pamc_load.c | `__pamc_exec_agent`, `__pamc_agent_is_enabled`, `__pamc_agent_is_disabled`, `pamc_disable`, `pamc_load`, `__pamc_valid_agent_id`, `__pamc_add_node`, `__pamc_fill_list_from_tree`, `pamc_list_agents` | `__pamc_liberate_nodes` |
| modules/pam_access/pam_access.c | `parse_args`, `base_name`, `read_access_dir`, `isipaddr`, `is_local_addr`, `are_addresses_equal`, `number_to_netmask`, `login_access`, `list_match`, `user_name_or_uid_match`, `user_match`, `group_name_or_gid_match`, `group_match`, `from_match`, `remote_match`, `string_match`, `network_netmask_match`, `pam_access` | `compare_filename`, `netgroup_match`, `is_device`, `pam_sm_setcred`, `pam_sm_authenticate`, `pam_sm_acct_mgmt`, `pam_sm_open_session`, `pam_sm_close_session`, `pam_sm_chauthtok` |
| modules/pam_canonicalize_user/pam_canonicalize_user.c | `pam_sm_authenticate` | `pam_sm_setcred` |
| modules/pam_debug/pam_debug.c | `parse_args`, `pam_sm_authenticate`, `pam_sm_setcred`, `pam_sm_acct_mgmt`, `pam_sm_chauthtok`, `pam_sm_open_session`, `pam_sm_close_session` | `state` |
| modules/pam_deny/pam_deny.c | `pam_sm_authenticate`, `pam_sm_setcred`, `pam_sm_acct_mgmt`, `pam_sm_chauthtok`, `pam_sm_open_session`, `pam_sm_close_session` | – |
| modules/pam_echo/pam_echo.c | `replace_and_print`, `pam_echo`, `pam_sm_authenticate`, `pam_sm_setcred`, `pam_sm_acct_mgmt`, `pam_sm_open_session`, `pam_sm_close_session`, `pam_sm_chauthtok` | – |
| modules/pam_env/pam_env.c | `_pam_parse`, `read_file`, `_parse_line`, `_pam_get_item_byname`, `_strbuf_init`, `_strbuf_reserve`, `_strbuf_add_char`, `_strbuf_add_string`, `_expand_arg`, `_check_var`, `_clean_var`, `_define_var`, `_undefine_var`, `_parse_config_file`, `_parse_env_file`, `handle_env` | `free_string_array`, `econf_unescnl`, `econf_read_file`, `_strbuf_free`, `pam_sm_authenticate`, `pam_sm_acct_mgmt`, `pam_sm_setcred`, `pam_sm_open_session`, `pam_sm_close_session`, `pam_sm_chauthtok` |
| modules/pam_exec/pam_exec.c | `move_fd_to_non_stdio`, `call_exec`, `pam_sm_authenticate`, `pam_sm_setcred`, `pam_sm_chauthtok`, `pam_sm_acct_mgmt`, `pam_sm_open_session`, `pam_sm_close_session` | – |
| modules/pam_faildelay/pam_faildelay.c | `parse_delay`, `pam_sm_authenticate` | `pam_sm_setcred` |
| modules/pam_faillock/faillock.c | `open_tally`, `read_tally`, `update_tally` | – |
| modules/pam_faillock/faillock_config.c | `read_config_file`, `set_conf_opt` | `config_log`, `get_tally_dir` |
| modules/pam_faillock/main.c | `args_parse`, `print_in_new_format`, `print_in_legacy_format`, `do_user`, `do_allusers`, `main` | `usage`, `get_local_time` |
| modules/pam_faillock/pam_faillock.c | `args_parse`, `get_pam_user`, `check_tally`, `reset_tally`, `write_tally`, `tally_cleanup`, `pam_sm_authenticate`, `pam_sm_setcred`, `pam_sm_acct_mgmt` | `check_local_user`, `faillock_message`, `opts_cleanup` |
| modules/pam_filter/pam_filter.c | `process_args`, `set_filter`, `set_the_terminal`, `need_a_filter`, `pam_sm_authenticate`, `pam_sm_setcred`, `pam_sm_acct_mgmt`, `pam_sm_open_session`, `pam_sm_close_session`, `pam_sm_chauthtok` | `master`, `free_evp` |
| modules/pam_filter/upperLOWER/upperLOWER.c | `do_transpose`, `main` | – |
| modules/pam_ftp/pam_ftp.c | `_pam_parse`, `lookup`, `pam_sm_authenticate` | `pam_sm_setcred` |
| modules/pam_group/pam_group.c | `logic_member`, `logic_field`, `is_same`, `time_now`, `check_time`, `find_member`, `mkgrplist`, `check_account`, `pam_sm_setcred` | `shift_buf`, `trim_spaces`, `read_field`, `pam_sm_authenticate` |
| modules/pam_issue/pam_issue.c | `read_issue_raw`, `read_issue_quoted`, `pam_sm_authenticate` | `pam_sm_setcred` |
| modules/pam_keyinit/pam_keyinit.c | `pam_setreuid`, `pam_setregid`, `pam_setresuid`, `init_keyrings`, `kill_keyrings`, `do_keyinit`, `pam_sm_setcred`, `pam_sm_open_session`, `pam_sm_close_session` | `debug`, `error`, `pam_sm_authenticate` |
| modules/pam_lastlog/pam_lastlog.c | `_pam_auth_parse`, `_pam_session_parse`, `get_tty`, `get_lastlog_uid_max`, `last_login_open`, `last_login_read`, `last_login_write`, `last_login_date`, `last_login_failed`, `pam_auth`, `pam_sm_open_session`, `pam_sm_close_session` | `pam_sm_setcred`, `pam_sm_authenticate`, `pam_sm_acct_mgmt` |
| modules/pam_limits/pam_limits.c | `_pam_parse`, `check_logins`, `str2rlimit`, `str2rlim_t`, `parse_kernel_limits`, `init_limits`, `value_from_file`, `process_limit`, `parse_uid_range`, `trim`, `split`, `parse_config_file`, `setup_limits`, `base_name`, `compare_filename`, `read_limits_dir`, `pam_sm_open_session` | `rlimit2str`, `set_if_null`, `pam_sm_close_session` |
| modules/pam_listfile/pam_listfile.c | `pam_listfile` | `pam_sm_authenticate`, `pam_sm_setcred`, `pam_sm_acct_mgmt`, `pam_sm_open_session`, `pam_sm_close_session`, `pam_sm_chauthtok` |
| modules/pam_localuser/pam_localuser.c | `pam_localuser` | `pam_sm_setcred`, `pam_sm_authenticate`, `pam_sm_acct_mgmt`, `pam_sm_open_session`, `pam_sm_close_session`, `pam_sm_chauthtok` |
| modules/pam_loginuid/pam_loginuid.c | `set_loginuid`, `check_auditd` | `pam_sm_acct_mgmt`, `pam_sm_open_session`, `pam_sm_close_session` |
| modules/pam_mail/pam_mail.c | `_pam_parse`, `get_folder`, `get_mail_status`, `report_mail`, `pam_sm_authenticate`, `pam_sm_setcred`, `pam_sm_close_session`, `pam_sm_open_session`, `_do_mail` | – |
| modules/pam_mkhomedir/mkhomedir_helper.c | `copy_entry`, `create_homedir`, `create_homedir_helper`, `make_parent_dirs`, `main` | `dir_spec_open`, `dir_spec_at`, `dir_spec_close` |
| modules/pam_mkhomedir/pam_mkhomedir.c | `_pam_conv_str_umask_to_homemode`, `create_homedir` | `_pam_parse`, `pam_sm_open_session`, `pam_sm_close_session` |
| modules/pam_motd/pam_motd.c | `try_to_display_fd`, `pam_split_string`, `join_dir_strings`, `try_to_display_directories_with_overrides`, `try_to_display`, `pam_sm_open_session` | `pam_sm_close_session`, `compare_strings`, `drop_privileges` |
| modules/pam_namespace/argv_parse.c | `argv_parse` | `argv_free`, `main` |
| modules/pam_namespace/md5.c | – (the same algorithm as `modules/pam_unix/md5.c`, which is modelled) | `byteReverse`, `MD5Name` |
| modules/pam_namespace/pam_namespace.c | `base_name`, `strip_trailing_slashes`, `protect_mount`, `secure_opendir`, `secure_umount`, `secure_try_rmdir`, `read_namespace_dir`, `del_polydir_list`, `unprotect_dirs`, `expand_variables`, `parse_create_params`, `parse_iscript_params`, `filter_mntopts`, `parse_method`, `process_line`, `parse_config_file`, `ns_override`, `set_polydir_paths`, `check_inst_parent`, `check_safe_path`, `inst_init`, `create_polydir`, `ns_setup`, `cwd_in`, `cleanup_tmpdirs`, `setup_namespace`, `orig_namespace`, `root_shared`, `get_user_data`, `pam_sm_open_session`, `pam_sm_close_session` | `compare_filename`, `close_fds_pre_exec`, `secure_opendir_stateless`, `add_polydir_entry`, `del_polydir`, `cleanup_polydir_data`, `cleanup_protect_data`, `md5hash`, `secure_getfilecon`, `form_context`, `ctxt_based_inst_needed` |
| modules/pam_nologin/pam_nologin.c | `parse_args`, `perform_check`, `pam_sm_authenticate`, `pam_sm_setcred`, `pam_sm_acct_mgmt` | – |
| modules/pam_permit/pam_permit.c | `pam_sm_authenticate`, `pam_sm_setcred`, `pam_sm_acct_mgmt`, `pam_sm_chauthtok`, `pam_sm_open_session`, `pam_sm_close_session` | – |
| modules/pam_pwhistory/opasswd.c | `parse_entry`, `compare_password`, `PAMH_ARG_DECL` | `helper_log_err` |
| modules/pam_pwhistory/pam_pwhistory.c | `parse_option`, `run_save_helper`, `run_check_helper`, `pam_sm_chauthtok` | – |
| modules/pam_pwhistory/pwhistory_config.c | `parse_config_file` | – |
| modules/pam_pwhistory/pwhistory_helper.c | `check_history`, `main` | `save_history` |
| modules/pam_rhosts/pam_rhosts.c | `pam_sm_authenticate` | `pam_sm_setcred` |
| modules/pam_rootok/pam_rootok.c | `check_for_root` | `_pam_parse`, `log_callback`, `selinux_check_root`, `pam_sm_authenticate`, `pam_sm_setcred`, `pam_sm_acct_mgmt`, `pam_sm_chauthtok` |
| modules/pam_securetty/pam_securetty.c | `_pam_parse`, `securetty_perform_check`, `pam_sm_authenticate`, `pam_sm_setcred`, `pam_sm_acct_mgmt` | – |
| modules/pam_selinux/pam_selinux.c | `query_response`, `config_context`, `context_from_env`, `set_file_context`, `compute_exec_context`, `compute_tty_context`, `restore_context`, `set_context`, `create_context`, `pam_sm_open_session`, `pam_sm_close_session` | `send_audit_message`, `send_text`, `free_module_data`, `cleanup`, `get_module_data`, `get_item`, `set_exec_context`, `pam_sm_authenticate`, `pam_sm_setcred` |
| modules/pam_selinux/pam_selinux_check.c | – | `authenticate_via_pam`, `main` (a test program) |
| modules/pam_sepermit/pam_sepermit.c | `match_process_uid`, `check_running`, `get_loginuid`, `sepermit_unlock`, `sepermit_lock`, `sepermit_match`, `pam_sepermit` | `pam_sm_setcred`, `pam_sm_authenticate`, `pam_sm_acct_mgmt` |
| modules/pam_setquota/pam_setquota.c | `pam_sm_open_session` | `pam_sm_close_session` |
| modules/pam_shells/pam_shells.c | `check_file`, `perform_check` | `pam_sm_authenticate`, `pam_sm_setcred`, `pam_sm_acct_mgmt` |
| modules/pam_stress/pam_stress.c | `_pam_parse`, `converse`, `stress_get_password`, `pam_sm_authenticate`, `pam_sm_setcred`, `pam_sm_acct_mgmt`, `pam_sm_open_session`, `pam_sm_close_session`, `pam_sm_chauthtok` | `_pam_report`, `wipe_up` (a test module) |
| modules/pam_succeed_if/pam_succeed_if.c | `evaluate_num`, `evaluate_inlist`, `evaluate_ingroup`, `evaluate_notingroup`, `evaluate`, `log_requirement`, `pam_succeed_if`, `pam_sm_setcred`, `pam_sm_authenticate`, `pam_sm_acct_mgmt`, `pam_sm_open_session`, `pam_sm_close_session`, `pam_sm_chauthtok`, `evaluate_eqn`, `evaluate_eqs`, `evaluate_nen`, `evaluate_nes`, `evaluate_lt`, `evaluate_le`, `evaluate_gt`, `evaluate_ge`, `evaluate_glob`, `evaluate_noglob`, `evaluate_notinlist`, `evaluate_innetgr`, `evaluate_notinnetgr` (the operators are cited together) | `eq`, `ne`, `lt`, `le`, `gt`, `ge` |
| modules/pam_time/pam_time.c | `trim_spaces`, `read_field`, `logic_member`, `logic_field`, `is_same`, `time_now`, `check_time`, `check_account`, `pam_sm_acct_mgmt` | `_pam_parse`, `shift_buf` |
| modules/pam_timestamp/hmac_openssl_wrapper.c | – | `generate_key`, `read_file`, `write_file`, `key_management`, `hmac_management`, `hmac_size`, `hmac_generate` (optional; the built-in HMAC is modelled) |
| modules/pam_timestamp/hmacfile.c | – | `testvectors`, `main` (a test program) |
| modules/pam_timestamp/hmacsha1.c | `hmac_key_create`, `hmac_key_read`, `xor_block`, `hmac_sha1_generate`, `hmac_sha1_generate_file` | `hmac_sha1_size` |
| modules/pam_timestamp/pam_timestamp.c | `check_dir_perms`, `check_tty`, `format_timestamp_name`, `timestamp_good`, `get_ruser`, `get_timestamp_name`, `pam_sm_authenticate`, `pam_sm_open_session`, `main` | `verbose_success`, `pam_sm_setcred`, `pam_sm_close_session` |
| modules/pam_timestamp/pam_timestamp_check.c | – | – (includes pam_timestamp.c) |
| modules/pam_timestamp/sha1.c | `F`, `G`, `H`, `RL`, `sha1_round`, `sha1_init`, `sha1_process`, `sha1_update`, `sha1_output` | – |
| modules/pam_tty_audit/pam_tty_audit.c | `nl_open`, `nl_send`, `nl_recv`, `nl_recv_ack`, `parse_uid_range`, `pam_sm_open_session`, `pam_sm_close_session` | `cleanup_old_status` |
| modules/pam_umask/pam_umask.c | `parse_option`, `get_options`, `set_umask`, `setup_limits_from_gecos`, `pam_sm_open_session` | `pam_sm_close_session` |
| modules/pam_unix/audit.c | – | `audit_log` (records for the audit daemon) |
| modules/pam_unix/bigcrypt.c | `bigcrypt` | – |
| modules/pam_unix/bigcrypt_main.c | – | `main` (a test program) |
| modules/pam_unix/md5.c | `MD5Name` | `byteReverse` |
| modules/pam_unix/md5_crypt.c | `to64`, `MD5Name` | – |
| modules/pam_unix/pam_unix_acct.c | `_unix_run_verify_binary`, `pam_sm_acct_mgmt` | – |
| modules/pam_unix/pam_unix_auth.c | `pam_sm_authenticate`, `pam_sm_setcred` | `setcred_free` |
| modules/pam_unix/pam_unix_passwd.c | `_unix_run_update_binary`, `check_old_password`, `_do_setpass`, `_unix_verify_shadow`, `_pam_unix_approve_pass`, `pam_sm_chauthtok` | `__taddr2port`, `getNISserver` |
| modules/pam_unix/pam_unix_sess.c | `pam_sm_open_session`, `pam_sm_close_session` | – |
| modules/pam_unix/passverify.c | `strip_hpux_aging`, `PAMH_ARG_DECL`, `is_pwd_shadowed`, `i64c`, `crypt_make_salt`, `crypt_md5_wrapper`, `unix_selinux_confined`, `lock_pwdf`, `unlock_pwdf`, `helper_verify_password` | `fmkstemp`, `helper_log_err`, `su_sighandler`, `setup_signals`, `getuidname` |
| modules/pam_unix/support.c | `_make_remark`, `_unix_strtoi`, `_set_ctrl`, `_cleanup_failures`, `_unix_getpwnam`, `_unix_run_helper_binary`, `_unix_blankpasswd`, `_unix_verify_password`, `_unix_verify_user` | `_unix_cleanup`, `_unix_comesfromsource` |
| modules/pam_unix/unix_chkpwd.c | `_check_expiry`, `main` | – |
| modules/pam_unix/unix_update.c | `set_password`, `main` | – |
| modules/pam_unix/yppasswd_xdr.c | – | `xdr_passwd`, `xdr_yppasswd` (NIS encoding) |
| modules/pam_userdb/pam_userdb.c | `obtain_authtok`, `_pam_parse`, `user_lookup`, `pam_sm_authenticate`, `pam_sm_acct_mgmt` | `db_open`, `db_firstkey`, `db_nextkey`, `db_fetch`, `db_close`, `pam_sm_setcred` |
| modules/pam_usertype/pam_usertype.c | `pam_usertype_parse_args`, `pam_usertype_get_uid`, `pam_usertype_get_id`, `pam_usertype_is_system`, `pam_usertype_is_regular`, `pam_usertype_evaluate`, `pam_usertype` | `pam_sm_setcred`, `pam_sm_authenticate`, `pam_sm_acct_mgmt`, `pam_sm_open_session`, `pam_sm_close_session`, `pam_sm_chauthtok` |
| modules/pam_warn/pam_warn.c | `log_items`, `pam_sm_authenticate`, `pam_sm_setcred`, `pam_sm_chauthtok`, `pam_sm_acct_mgmt`, `pam_sm_open_session`, `pam_sm_close_session` | – (logs and returns PAM_IGNORE) |
| modules/pam_wheel/pam_wheel.c | `_pam_parse`, `perform_check`, `pam_sm_authenticate`, `pam_sm_setcred`, `pam_sm_acct_mgmt` | – |
| modules/pam_xauth/pam_xauth.c | `run_coprocess`, `check_acl`, `pam_sm_open_session`, `pam_sm_close_session` | `cleanup` |
