{"id": "C01", "title": "Success needs a granting module", "statement": "If pam_authenticate, pam_acct_mgmt, pam_open_session, pam_chauthtok, pam_setcred or pam_close_session walks its configured stack and returns PAM_SUCCESS, then at least one module function that was really called during that walk returned PAM_SUCCESS, and that module is recorded as a grantor.", "quantifier": "all stacks (any length, nesting and control tables), all module behaviours, all starting states of the cached chain, any number of PAM_INCOMPLETE interruptions", "why_tests_cant": "the control tables and module answers form an unbounded space; a fail-open combination would be one odd table among infinitely many", "anchors": ["libpam/pam_dispatch.c:_pam_dispatch_aux", "libpam/pam_dispatch.c:_pam_dispatch"]}
{"id": "C02", "title": "A failing required module is never masked", "statement": "In a stack with no reset action, once a called module returns a code whose configured action is bad or die (or an out-of-range code), the stack never returns PAM_SUCCESS, and it returns the code of the first such failure (PAM_PERM_DENIED when that code is PAM_IGNORE or out of range, or when a bad jump occurs).", "quantifier": "all stacks without reset, all module behaviours", "why_tests_cant": "masking could depend on any later combination of done, jump, substack and ok actions", "anchors": ["libpam/pam_dispatch.c:_pam_dispatch_aux"]}
{"id": "C03", "title": "Stack walk equals structured semantics of nested stacks", "statement": "Walking the flat, level-annotated handler list gives exactly the result, module call order and grantors of the documented structured reading: done/die end only the enclosing substack, reset returns to the state at entry of the enclosing substack, jump N skips N entries of the enclosing substack with a nested substack counted as one entry, and a jump past the end of the enclosing substack is a failure.", "quantifier": "all trees of modules and substacks of any depth and width, all control tables, all module behaviours", "why_tests_cant": "the pointer-walk over levels must agree with the tree reading for every nesting; tests only cover a few shapes", "anchors": ["libpam/pam_dispatch.c:_pam_dispatch_aux"]}
{"id": "C04", "title": "Classic control flags have their documented meaning", "statement": "For stacks made of required, requisite, sufficient and optional lines: the result is the code of the first failing required/requisite module among the executed ones; otherwise the first non-success positive code, otherwise PAM_SUCCESS if some executed module was positive, otherwise PAM_PERM_DENIED; modules after a failing requisite, or after a succeeding sufficient with no earlier failure, are not run, and all others are.", "quantifier": "all lists of classic control lines and all module results", "why_tests_cant": "infinitely many stacks; the guarantee is about every prefix of every stack", "anchors": ["libpam/pam_dispatch.c:_pam_dispatch_aux", "libpam/pam_handlers.c:_pam_parse_conf_file"]}
{"id": "C05", "title": "Event-driven applications: resuming after PAM_INCOMPLETE loses nothing", "statement": "If modules answer PAM_INCOMPLETE any number of times and the application repeats the same call each time, the final result, module effects, cached chain and grantors are the same as if every module had answered at once; modules that already answered are not called again.", "quantifier": "all stacks, all finite interruption schedules, all module behaviours", "why_tests_cant": "the number and place of interruptions is unbounded", "anchors": ["libpam/pam_dispatch.c:_pam_dispatch_aux", "libpam/pam_dispatch.c:_pam_dispatch"]}
{"id": "C06", "title": "Substack state table is never read out of bounds or uninitialised", "statement": "For every configuration that the loader accepts, walking any of the loaded stacks only touches substack slots 0..15 and only reads slots written earlier in the same walk.", "quantifier": "all configuration file contents, include/substack graphs (also cyclic), module behaviours", "why_tests_cant": "memory safety over all configurations and executions", "anchors": ["libpam/pam_dispatch.c:_pam_dispatch_aux", "libpam/pam_handlers.c:_pam_load_conf_file"]}
{"id": "C07", "title": "pam_setcred and pam_close_session follow the frozen chain", "statement": "After a completed pam_authenticate (pam_open_session) on a handle, pam_setcred (pam_close_session) calls exactly the modules that the first call ran, in the same order.", "quantifier": "all auth/session stacks and module behaviours", "why_tests_cant": "depends on every combination of recorded and current module answers", "anchors": ["libpam/pam_dispatch.c:_pam_dispatch_aux", "libpam/pam_handlers.c:_pam_add_handler"]}
{"id": "C08", "title": "Return-code hygiene of a stack walk", "statement": "A completed walk never returns a code that no module returned, apart from PAM_PERM_DENIED, PAM_MODULE_UNKNOWN; a code outside 0..31 is never handed to the application; PAM_IGNORE is returned only if some called module returned PAM_IGNORE and the control line maps ignore to ok or done; PAM_INCOMPLETE is returned only when a module asked for it.", "quantifier": "all stacks and module behaviours (modules may return any int)", "why_tests_cant": "modules may return any of 2^32 values in any order", "anchors": ["libpam/pam_dispatch.c:_pam_dispatch_aux"]}
{"id": "C09", "title": "Empty stacks deny; `other` is used only as a fallback", "statement": "If neither the service nor `other` lists a module of the requested type the call returns PAM_PERM_DENIED without calling a module; the `other` modules of a type are consulted only if the service configuration lists none of that type, and independently for each type.", "quantifier": "all loaded configurations", "why_tests_cant": "quantifies over all configurations and all six operations", "anchors": ["libpam/pam_dispatch.c:_pam_dispatch"]}
{"id": "C10", "title": "Bracketed control strings mean what they list", "statement": "For every syntactically valid control string, the resulting action for a return code is the one assigned by the last explicit `code=action` for that code; if there is none, by the first `default=action`; if there is none, bad. Jump counts are exact and within 1..2147483647.", "quantifier": "all control strings and all return codes", "why_tests_cant": "unbounded strings with repeated keys, defaults, spacing and jump numbers", "anchors": ["libpam/pam_misc.c:_pam_parse_control", "libpam/pam_misc.c:_pam_set_default_control", "libpam/pam_tokens.h"]}
{"id": "C11", "title": "A control string with any syntax error fails closed", "statement": "If parsing of a control string hits an error anywhere (unknown code, missing =, unknown action, jump 0, jump too large), every return code is mapped to bad, so that line alone can never contribute to success.", "quantifier": "all strings", "why_tests_cant": "errors can appear after any number of valid entries", "anchors": ["libpam/pam_misc.c:_pam_parse_control"]}
{"id": "C12", "title": "Configuration tokens round-trip through bracket quoting", "statement": "Any argument without NUL that does not end in a backslash, written as [..] with each ] escaped as \\], is delivered to the module unchanged; plain words without blanks and not starting with [ are delivered unchanged; arguments keep their order.", "quantifier": "all argument lists", "why_tests_cant": "unbounded strings with any mixture of brackets and backslashes", "anchors": ["libpam/pam_misc.c:_pam_tokenize", "libpam/pam_misc.c:_pam_mkargv"]}
{"id": "C13", "title": "Argument vector construction stays in its buffer", "statement": "For every argument string of length l, the number of tokens is at most l, so the pointer part of the allocated block never overlaps the copied text, and every read and write of the tokenizer stays within the NUL-terminated string.", "quantifier": "all strings", "why_tests_cant": "memory safety for unbounded inputs", "anchors": ["libpam/pam_misc.c:_pam_mkargv", "libpam/pam_misc.c:_pam_tokenize"]}
{"id": "C14", "title": "Logical configuration lines", "statement": "Assembling a configuration file into logical lines strips leading blanks and comments, joins physical lines ending in a backslash, skips empty and comment-only lines, and never yields a logical line that is empty or begins with a blank; a file whose last line ends in a continuation backslash is an error.", "quantifier": "all file contents", "why_tests_cant": "unbounded files and all interactions of comments, blanks and continuations", "anchors": ["libpam_internal/pam_line.c:_pam_line_assemble", "libpam_internal/pam_line.c:_pam_str_prepare"]}
{"id": "C15", "title": "Include graphs of any shape load in finite time and bounded depth", "statement": "Loading a service terminates for every set of configuration files, also with include cycles; no handler ever has a substack level of 16 or more, levels start at 0 and rise by at most one from one handler to the next, and an include nested 16 deep is turned into a failing entry instead of being followed.", "quantifier": "all finite or infinite families of configuration files", "why_tests_cant": "include graphs can be cyclic and exponentially branching", "anchors": ["libpam/pam_handlers.c:_pam_load_conf_file", "libpam/pam_handlers.c:_pam_parse_conf_file"]}
{"id": "C16", "title": "Malformed configuration lines fail closed", "statement": "A configuration line with a missing or illegal module type, a missing control flag, a missing module name, an unparsable control, or an include that cannot be loaded makes every walk that reaches it return a failure.", "quantifier": "all malformed lines in all stacks", "why_tests_cant": "malformed inputs are unbounded", "anchors": ["libpam/pam_handlers.c:_pam_parse_conf_file"]}
{"id": "C17", "title": "PAM environment is a map", "statement": "After any sequence of pam_putenv calls, pam_getenv(name) returns the value of the last successful setting of that name not followed by a deletion, and NULL otherwise; failed calls leave other variables untouched, also when memory runs out. A replacement that fails for lack of memory leaves that variable unset and all others untouched; names contain no `=`.", "quantifier": "all histories of calls, all names and values, all allocation-failure points", "why_tests_cant": "unbounded histories with allocation failure at any point", "anchors": ["libpam/pam_env.c:pam_putenv", "libpam/pam_env.c:pam_getenv"]}
{"id": "C18", "title": "pam_getenvlist is a faithful, duplicate-free snapshot", "statement": "pam_getenvlist returns each set variable exactly once as NAME=VALUE, in order of first setting, NULL-terminated; the internal list never overruns its allocation.", "quantifier": "all histories of pam_putenv calls", "why_tests_cant": "unbounded histories crossing every reallocation boundary", "anchors": ["libpam/pam_env.c:pam_getenvlist", "libpam/pam_env.c:_copy_env"]}
{"id": "C19", "title": "Module data is a map and every cleanup runs exactly once", "statement": "pam_get_data returns the datum of the last successful pam_set_data of that name; each datum's cleanup function is called exactly once, either when replaced (with PAM_DATA_REPLACE in the status) or at pam_end, and never while the datum is still current.", "quantifier": "all histories of pam_set_data/pam_get_data ending in pam_end", "why_tests_cant": "unbounded histories", "anchors": ["libpam/pam_data.c:pam_set_data", "libpam/pam_data.c:pam_get_data", "libpam/pam_data.c:_pam_free_data"]}
{"id": "C20", "title": "Authentication tokens are invisible to applications", "statement": "A caller running as the application can neither read nor write PAM_AUTHTOK or PAM_OLDAUTHTOK: both pam_get_item and pam_set_item return PAM_BAD_ITEM, hand out no pointer, and change nothing.", "quantifier": "all handle states and item values", "why_tests_cant": "must hold in every reachable state of the handle", "anchors": ["libpam/pam_item.c:pam_set_item", "libpam/pam_item.c:pam_get_item"]}
{"id": "C21", "title": "Authentication tokens do not outlive the call", "statement": "Whenever pam_authenticate or pam_chauthtok returns to the application with anything but PAM_INCOMPLETE after running its stack, PAM_AUTHTOK and PAM_OLDAUTHTOK are unset, whatever the modules stored.", "quantifier": "all histories of API calls and module behaviours", "why_tests_cant": "unbounded histories including incomplete/resumed calls", "anchors": ["libpam/pam_auth.c:pam_authenticate", "libpam/pam_password.c:pam_chauthtok", "libpam/pam_misc.c:_pam_sanitize"]}
{"id": "C22", "title": "Password change is two-phase", "statement": "Over any history of calls on a handle, modules are called with PAM_UPDATE_AUTHTOK only in a pam_chauthtok whose preliminary-check pass over the whole stack returned PAM_SUCCESS; an application passing PAM_PRELIM_CHECK or PAM_UPDATE_AUTHTOK itself is refused with PAM_SYSTEM_ERR and no module is called.", "quantifier": "all histories, including PAM_INCOMPLETE in either phase", "why_tests_cant": "unbounded histories with interruption at any point", "anchors": ["libpam/pam_password.c:pam_chauthtok"]}
{"id": "C23", "title": "Calls from modules cannot re-enter the dispatcher", "statement": "pam_authenticate, pam_setcred, pam_acct_mgmt, pam_open_session, pam_close_session and pam_chauthtok called while a module is running return PAM_SYSTEM_ERR and call no module; after each application call returns, the handle is again in application mode.", "quantifier": "all handle states and module behaviours", "why_tests_cant": "all reachable states", "anchors": ["libpam/pam_dispatch.c:_pam_dispatch", "libpam/pam_auth.c", "libpam/pam_account.c", "libpam/pam_session.c", "libpam/pam_password.c"]}
{"id": "C24", "title": "Only the interrupted operation can be resumed", "statement": "While an operation is suspended with PAM_INCOMPLETE, calling a different operation returns PAM_ABORT, calls no module, and leaves the suspended operation resumable.", "quantifier": "all handle states, all pairs of operations", "why_tests_cant": "all reachable states and histories", "anchors": ["libpam/pam_dispatch.c:_pam_dispatch"]}
{"id": "C25", "title": "Failure delay is the largest request", "statement": "The delay handed to the delay function (or slept) at the end of a failed authentication or password change is derived from the maximum of the delays requested with pam_fail_delay since the operation started; requests are forgotten afterwards.", "quantifier": "all sequences of requests", "why_tests_cant": "unbounded sequences", "anchors": ["libpam/pam_delay.c"]}
{"id": "C26", "title": "pam_get_user asks at most once and remembers", "statement": "If the user name is set, pam_get_user returns it without a conversation; otherwise it asks once with the caller's prompt, else the configured prompt, else `login:`; a failed conversation is not repeated until the user, prompt or conversation item changes; a suspended one can be resumed only with the same prompt.", "quantifier": "all histories of item changes and conversation answers", "why_tests_cant": "unbounded histories", "anchors": ["libpam/pam_item.c:pam_get_user"]}
{"id": "C27", "title": "New passwords are confirmed", "statement": "When pam_get_authtok (verifying form) obtains a new password during pam_chauthtok by asking, success implies that the user typed the same string twice; on mismatch it fails, stores nothing and returns PAM_TRY_AGAIN.", "quantifier": "all conversation answers and handle states", "why_tests_cant": "all inputs and prior states", "anchors": ["libpam/pam_get_authtok.c:pam_get_authtok_internal", "libpam/pam_get_authtok.c:pam_get_authtok_verify"]}
{"id": "C28", "title": "Constant-time string comparison is string equality", "statement": "pam_consttime_streq returns true exactly for equal strings and the number of loop iterations depends only on the user-supplied string.", "quantifier": "all pairs of strings", "why_tests_cant": "all pairs of unbounded strings", "anchors": ["libpam/include/pam_inline.h:pam_consttime_streq"]}
{"id": "C29", "title": "Passwords read from a pipe are independent of chunking", "statement": "pam_read_passwords fills the requested slots with the NUL-separated strings of the byte stream, regardless of how read() splits the stream, and never writes outside its 512-byte slots.", "quantifier": "all byte streams and all read() schedules", "why_tests_cant": "schedules of partial reads are unbounded", "anchors": ["libpam/include/pam_inline.h:pam_read_passwords"]}
{"id": "C30", "title": "Full-length I/O helpers survive partial transfers and EINTR", "statement": "pam_modutil_read returns exactly the first count bytes of the stream (or all, at EOF), pam_modutil_write writes exactly the given bytes, for every schedule of short transfers and EINTR.", "quantifier": "all schedules of read/write results", "why_tests_cant": "schedules are unbounded", "anchors": ["libpam/pam_modutil_ioloop.c"]}
{"id": "C31", "title": "User lookup in a passwd-style file is exact", "statement": "pam_modutil_check_user_in_passwd reports success exactly if some line of the file starts with the user name followed by a colon (and the name is acceptable), regardless of line lengths; a user name that is a prefix of another is not confused with it.", "quantifier": "all files and user names", "why_tests_cant": "unbounded files, long lines crossing any buffer boundary", "anchors": ["libpam/pam_modutil_check_user.c"]}
{"id": "C32", "title": "Key lookup in login.defs-style files", "statement": "pam_modutil_search_key returns the value of the first line whose first word equals the key (the case of letters does not matter), ignoring comments and the blanks around key and value, or nothing if there is no such line or no file.", "quantifier": "all files and keys", "why_tests_cant": "unbounded files", "anchors": ["libpam/pam_modutil_searchkey.c"]}
{"id": "C33", "title": "Dropping and regaining privileges is exact", "statement": "After pam_modutil_drop_priv succeeds for an ordinary user in a privileged process, the file system uid and gid are those of the user and the supplementary groups are the user's or none; pam_modutil_regain_priv, when it reports success, has restored the saved uid, gid and supplementary groups exactly; a failed drop leaves the credentials unchanged as far as the kernel allows.", "quantifier": "all credential states and failing system calls", "why_tests_cant": "system-call failure at every point", "anchors": ["libpam/pam_modutil_priv.c"]}
{"id": "C34", "title": "Binary-prompt framing", "statement": "pamc_converse passes exactly the client's prompt to the selected agent, rejects replies shorter than their header, and otherwise delivers exactly the framed reply, independent of how the transfers are chunked.", "quantifier": "all byte streams and schedules", "why_tests_cant": "unbounded streams", "anchors": ["libpamc/pamc_converse.c"]}
{"id": "C35", "title": "Access-time expressions evaluate as documented", "statement": "In time.conf and group.conf, a list field evaluates as the left-to-right combination of its items with & and |, with ! negating an item, and a malformed field never matches.", "quantifier": "all field texts and matching functions", "why_tests_cant": "unbounded expressions", "anchors": ["modules/pam_time/pam_time.c:logic_field", "modules/pam_group/pam_group.c:logic_field"]}
{"id": "C36", "title": "Time windows", "statement": "A time window of time.conf or group.conf matches exactly the minutes of its marked days from start (included) to end; a day counts when an odd number of the day names cover it; when the end is not after the start the window goes on into the next day. The end is excluded within a day and included on the next day. A word that is no day name, or no marked day, never matches; a missing or mistyped end matches always.", "quantifier": "all windows and all instants of the week", "why_tests_cant": "all combinations of days, starts, ends and instants, incl. midnight and week wrap", "anchors": ["modules/pam_time/pam_time.c:check_time"]}
{"id": "C37", "title": "pam_succeed_if is a conjunction", "statement": "pam_succeed_if succeeds exactly if every condition holds and conditions are complete; list membership tests compare whole elements.", "quantifier": "all argument vectors and user attributes", "why_tests_cant": "unbounded argument lists and list operands", "anchors": ["modules/pam_succeed_if/pam_succeed_if.c"]}
{"id": "C38", "title": "Account lockout after repeated failures", "statement": "With pam_faillock, after deny failures recorded within fail_interval the account is locked, until unlock_time has passed since the latest failure; a successful login or reset clears it; failures outside the interval do not count.", "quantifier": "all histories of failures, successes and clock readings", "why_tests_cant": "unbounded histories", "anchors": ["modules/pam_faillock/pam_faillock.c", "modules/pam_faillock/faillock.c"]}
{"id": "C39", "title": "Concurrent login failures are all counted", "statement": "Failed logins recorded by concurrent processes are each counted in the tally.", "quantifier": "all interleavings of any number of processes", "why_tests_cant": "schedules are unbounded", "anchors": ["modules/pam_faillock/pam_faillock.c:write_tally", "modules/pam_faillock/faillock.c:open_tally"]}
{"id": "C40", "title": "Login access table: first match wins, EXCEPT nests", "statement": "pam_access decides by the first line whose user list and origin list both match, + granting and - denying, and grants if none matches; a list A EXCEPT B EXCEPT C matches as A minus (B minus C).", "quantifier": "all tables, users and origins", "why_tests_cant": "unbounded tables and lists", "anchors": ["modules/pam_access/pam_access.c:login_access", "modules/pam_access/pam_access.c:list_match"]}
{"id": "C41", "title": "Network masks", "statement": "pam_access matches an address against network/prefix exactly if the first prefix bits agree.", "quantifier": "all addresses and prefix lengths", "why_tests_cant": "2^64 combinations for IPv4 alone", "anchors": ["modules/pam_access/pam_access.c:are_addresses_equal", "modules/pam_access/pam_access.c:number_to_netmask"]}
{"id": "C42", "title": "Resource-limit precedence", "statement": "pam_limits applies, for each limit, the last entry of the most specific kind (user before group before default), soft limits never exceed hard limits, and unit scaling never overflows.", "quantifier": "all limit tables", "why_tests_cant": "unbounded tables", "anchors": ["modules/pam_limits/pam_limits.c:process_limit", "modules/pam_limits/pam_limits.c:setup_limits"]}
{"id": "C43", "title": "What is loaded is what the files describe", "statement": "For every service and every set of configuration files, the modules consulted for an operation are the lines of that type of the service's file, in order, with the lines of included files in their place and substacks nested, each with the control, arguments and silence written on its line; a call is the structured interpretation of that description.", "quantifier": "all configuration directories, pam.conf files and services", "why_tests_cant": "unbounded files and include graphs", "anchors": ["libpam/pam_handlers.c:_pam_init_handlers", "libpam/pam_handlers.c:_pam_parse_conf_file", "libpam/pam_handlers.c:_pam_load_conf_file", "libpam/pam_handlers.c:_pam_add_handler"]}
{"id": "C44", "title": "The service name given to pam_start selects only files in the configuration directories", "statement": "pam_start uses only the part of its service argument behind the last `/`, in lower case; the service's configuration is therefore read from a file directly inside a configuration directory, and files elsewhere make no difference to which file is chosen.", "quantifier": "all service arguments, all file systems", "why_tests_cant": "all strings and all file systems", "anchors": ["libpam/pam_start.c:_pam_start_internal", "libpam/pam_handlers.c:_pam_open_config_file"]}
{"id": "C45", "title": "Items are independent variables", "statement": "In every history, pam_get_item of a non-token item returns the value last stored in that item by pam_start, a successful pam_set_item or pam_get_user (service names in lower case); calls about other items, failed calls and whole operations do not change it (except that a failed setting of PAM_XAUTHDATA clears it). Unknown item numbers are refused and change nothing.", "quantifier": "all histories of calls by application and modules", "why_tests_cant": "unbounded histories", "anchors": ["libpam/pam_item.c:pam_set_item", "libpam/pam_item.c:pam_get_item"]}
{"id": "C46", "title": "Which agent programs are run", "statement": "Over any history of pamc_load, pamc_disable and pamc_converse calls, every program libpamc runs is a file of one of its agent directories named by a single path component; an agent for which pamc_disable reported success is never run; no agent is run twice on one handle.", "quantifier": "all histories of calls, prompts, file systems and system-call outcomes", "why_tests_cant": "histories and prompts are unbounded", "anchors": ["libpamc/pamc_load.c:pamc_load", "libpamc/pamc_load.c:pamc_disable", "libpamc/pamc_converse.c:pamc_converse"]}
{"id": "C47", "title": "Prompts go to the selected agent only", "statement": "After a SELECT prompt that was passed on, everything pamc_converse sends until the next SELECT prompt goes to the process started from the file with the selected name; before any selection nothing is sent.", "quantifier": "all histories of calls and prompts", "why_tests_cant": "histories and prompts are unbounded", "anchors": ["libpamc/pamc_converse.c"]}
{"id": "C48", "title": "pamc_end shuts every agent down", "statement": "pamc_end closes the pipes of every agent that was run and waits for it, exactly once each, touches no other process, and reports success exactly if all of them exited with 0.", "quantifier": "all histories of calls before pamc_end and all exit statuses", "why_tests_cant": "histories are unbounded", "anchors": ["libpamc/pamc_client.c:pamc_end", "libpamc/pamc_client.c:__pamc_shutdown_agents"]}
{"id": "C49", "title": "pamc_list_agents lists the agents", "statement": "pamc_list_agents returns a NULL-terminated list of the distinct agent names found in the agent directories.", "quantifier": "all directory contents", "why_tests_cant": "directory contents are unbounded", "anchors": ["libpamc/pamc_load.c:pamc_list_agents"]}
{"id": "C50", "title": "Agent names in SELECT prompts are well formed", "statement": "The agent name in a SELECT prompt is accepted exactly if it consists of letters, digits and underscores, optionally followed by '@' and letters, digits, underscores and dots.", "quantifier": "all names", "why_tests_cant": "names are unbounded", "anchors": ["libpamc/pamc_load.c:__pamc_valid_agent_id"]}
{"id": "C51", "title": "Agent directories", "statement": "The agent directories are exactly the colon-separated components of PAMC_AGENT_PATH (or of the built-in default), in order; a trailing colon adds nothing.", "quantifier": "all search paths", "why_tests_cant": "search paths are unbounded strings", "anchors": ["libpamc/pamc_client.c:pamc_start"]}
{"id": "C52", "title": "Names and wildcards in rules", "statement": "A name in a rule of time.conf or group.conf matches a service, terminal or user exactly when it is that string, or when what stands before its star begins the string and what stands after it ends the string; the text after the name does not matter.", "quantifier": "all names, strings and following texts", "why_tests_cant": "unbounded strings; the comparison works on a pointer into the middle of the rule text", "anchors": ["modules/pam_time/pam_time.c:is_same", "modules/pam_group/pam_group.c:is_same"]}
{"id": "C53", "title": "pam_time's decision", "statement": "With a time.conf in documented form, pam_time denies an account exactly when some rule is about this service, terminal and user and not about the current time, wherever the rule stands in the file, however long its comments are and however its blanks and continuation lines are written; otherwise it succeeds. Whatever the file, it answers with success or denial only.", "quantifier": "all files, services, terminals, users and instants", "why_tests_cant": "unbounded files read through a 1000-byte window that may end anywhere", "anchors": ["modules/pam_time/pam_time.c:read_field", "modules/pam_time/pam_time.c:check_account", "modules/pam_time/pam_time.c:pam_sm_acct_mgmt"]}
{"id": "C54", "title": "pam_group's groups", "statement": "pam_group sets the groups the process had followed by the existing groups of the rules of group.conf that apply, in the order of the file; it never takes a group away, adds no number that is not the number of an existing group, and stays inside the memory of the group list.", "quantifier": "all files, group databases, initial groups, services, terminals, users and instants", "why_tests_cant": "unbounded files and group lists; the list grows in blocks across rules", "anchors": ["modules/pam_group/pam_group.c:check_account", "modules/pam_group/pam_group.c:mkgrplist", "modules/pam_group/pam_group.c:pam_sm_setcred"]}
{"id": "C55", "title": "An interrupted tally update loses no recent failure", "statement": "If recording a failed login with pam_faillock fails or is interrupted anywhere after the tally was read, every earlier failure that still counts (recent, and not ended by the expiry of a lock) is still recorded, as long as the file has fewer than its maximum of 1024 records.", "quantifier": "all files, options, clock readings and points of failure", "why_tests_cant": "crash points times file contents", "anchors": ["modules/pam_faillock/faillock.c:update_tally", "modules/pam_faillock/pam_faillock.c:write_tally"]}
{"id": "C56", "title": "pam_faillock's options", "statement": "Each option of pam_faillock has the value of its last readable setting, where the settings are the lines of the configuration file followed by the module arguments; without a readable setting it has the documented default, and root_unlock_time defaults to unlock_time. Blanks around names and values and comments in the file mean nothing. A missing default file means no settings.", "quantifier": "all configuration files and argument vectors", "why_tests_cant": "unbounded inputs; order and interplay of file, arguments and defaults", "anchors": ["modules/pam_faillock/faillock_config.c:read_config_file", "modules/pam_faillock/faillock_config.c:set_conf_opt", "modules/pam_faillock/pam_faillock.c:args_parse"]}
{"id": "C57", "title": "pam_access: what is read and what is answered", "statement": "pam_access reads the file named by accessfile=, or the default file followed by the files of the two access.d directories (a file in /etc hides the vendor's file of the same name; sorted by name), takes the remote host or else the terminal or service as the origin, and answers PAM_PERM_DENIED exactly if the first rule that applies denies; an unknown user, a missing origin and an access file that cannot be opened are errors; a default file that exists but cannot be opened denies.", "quantifier": "all argument vectors, items, directory contents and tables", "why_tests_cant": "unbounded inputs; interplay of files, arguments and items", "anchors": ["modules/pam_access/pam_access.c:pam_sm_authenticate", "modules/pam_access/pam_access.c:parse_args", "modules/pam_access/pam_access.c:read_access_dir"]}
{"id": "C58", "title": "pam_access: words for users", "statement": "A word of the user field stands for the user exactly if it is ALL, the user's name ignoring case, the decimal user number, a group of theirs (unless nodefgroup), (group) or (gid), @netgroup, @@netgroup with the host name, or user@host where the first part stands for the user and the second for this host.", "quantifier": "all words, users, groups and netgroups", "why_tests_cant": "all strings; overlapping syntactic forms", "anchors": ["modules/pam_access/pam_access.c:user_match", "modules/pam_access/pam_access.c:group_match", "modules/pam_access/pam_access.c:user_name_or_uid_match"]}
{"id": "C59", "title": "pam_access: words for origins", "statement": "A word of the origin field stands for the origin exactly if it is ALL, the origin's name ignoring case, LOCAL for a local login, @netgroup, .domain for a host whose name ends so, a prefix of dotted bytes such as 10.1. for a host with such an IPv4 address, an address, a network with mask or a host name with a common address; with nodns host names in the table are not resolved.", "quantifier": "all words, origins and resolver answers", "why_tests_cant": "all strings and resolver answers", "anchors": ["modules/pam_access/pam_access.c:from_match", "modules/pam_access/pam_access.c:remote_match", "modules/pam_access/pam_access.c:network_netmask_match"]}
{"id": "C60", "title": "pam_limits: domains", "statement": "A domain of limits.conf stands for the user exactly if it is their name, @group or @:gid of a group of theirs, @min: or @min:max around their primary group, %, %group, %:gid, *, :uid, min: or min:max around their number, and the entry is then of the kind user, group, all of a group, all, or default; a line 'domain -' frees exactly the users it names.", "quantifier": "all domains, users and groups", "why_tests_cant": "all strings; overlapping syntactic forms", "anchors": ["modules/pam_limits/pam_limits.c:parse_uid_range", "modules/pam_limits/pam_limits.c:parse_config_file"]}
{"id": "C61", "title": "pam_limits: what a session answers", "statement": "Opening a session answers success without setting anything if a line frees the user from limits, refuses with nothing set if the user is unknown or a file cannot be read, and otherwise makes all calls and answers success exactly if all succeed and there are not too many logins; conf= replaces the default files.", "quantifier": "all files, users, arguments and failures", "why_tests_cant": "unbounded tables and failure combinations", "anchors": ["modules/pam_limits/pam_limits.c:pam_sm_open_session", "modules/pam_limits/pam_limits.c:setup_limits"]}
{"id": "C62", "title": "pam_limits: number of logins", "statement": "A session is refused for too many logins exactly if the entry that counts for maxlogins (or maxsyslogins) sets a limit and the logins that count for it, with the one being opened, exceed it; user 0 is never limited.", "quantifier": "all tables and all contents of utmp", "why_tests_cant": "unbounded tables and lists of logins", "anchors": ["modules/pam_limits/pam_limits.c:check_logins", "modules/pam_limits/pam_limits.c:process_limit"]}
{"id": "C63", "title": "pam_limits: priority and nonewprivs", "statement": "The priority set is that of the last entry about it, or the one of the process; no_new_privs is set exactly if the last entry about it has the value 1.", "quantifier": "all tables", "why_tests_cant": "unbounded tables", "anchors": ["modules/pam_limits/pam_limits.c:process_limit", "modules/pam_limits/pam_limits.c:setup_limits"]}
{"id": "C64", "title": "pam_pwhistory: the history file", "statement": "Saving the current password of a user replaces the user's line by one with the password added at the end and only the last N kept, or appends a line; all other lines stay as they are, the password already last is not added again, and concurrent changes lose nothing.", "quantifier": "all history files, users, numbers of remembered passwords and current passwords", "why_tests_cant": "unbounded files and histories", "anchors": ["modules/pam_pwhistory/opasswd.c:save_old_pass", "modules/pam_pwhistory/opasswd.c:parse_entry"]}
{"id": "C65", "title": "pam_pwhistory: no password is used again", "statement": "In any sequence of password changes and interrupted attempts by any users, a new password accepted for a user who is not exempt is none of that user's last N passwords, the current one included.", "quantifier": "all sequences of calls, crash points and passwords", "why_tests_cant": "unbounded histories and interleavings of users, crash points", "anchors": ["modules/pam_pwhistory/opasswd.c:check_old_pass", "modules/pam_pwhistory/pam_pwhistory.c:pam_sm_chauthtok"]}
{"id": "C66", "title": "pam_pwhistory: what a password change answers", "statement": "The user is asked at most retry times; the first password not remembered is taken, any for an exempt root; after the last try the answer is PAM_MAXTRIES; other failures end the call with their code; PAM_IGNORE if nothing is to be remembered; the preliminary pass does nothing.", "quantifier": "all options, sequences of answers and histories", "why_tests_cant": "unbounded sequences of answers", "anchors": ["modules/pam_pwhistory/pam_pwhistory.c:pam_sm_chauthtok"]}
{"id": "C67", "title": "pam_pwhistory: crashes and failures", "statement": "Wherever saving a password fails or is killed, the history is as it was or complete with the update, a reported failure leaves everything as it was, and a success means the history was updated.", "quantifier": "all crash points and failing calls", "why_tests_cant": "every crash point and combination of failures", "anchors": ["modules/pam_pwhistory/opasswd.c:save_old_pass"]}
{"id": "C68", "title": "pam_pwhistory: options", "statement": "Each option has the value of the last argument that gives it, else that of the configuration file, else the default; the number of passwords stays within 0 and 400.", "quantifier": "all argument lists and configuration files", "why_tests_cant": "unbounded argument lists and files", "anchors": ["modules/pam_pwhistory/pam_pwhistory.c:parse_option", "modules/pam_pwhistory/pwhistory_config.c:parse_config_file"]}
{"id": "C69", "title": "pam_unix: which passwords a stored hash accepts", "statement": "A password is accepted exactly if hashing it under the stored hash, by the method the stored hash names (the aging part after a comma cut off), gives the stored hash back; an empty stored hash accepts only the empty password, and only if empty passwords are allowed; an empty password is never accepted otherwise; a hash that starts with ! or * accepts nothing.", "quantifier": "all stored hashes, passwords and hash functions", "why_tests_cant": "all strings as stored hashes and as passwords", "anchors": ["modules/pam_unix/passverify.c:verify_pwd_hash", "modules/pam_unix/passverify.c:strip_hpux_aging", "modules/pam_unix/bigcrypt.c:bigcrypt"]}
{"id": "C70", "title": "pam_unix: a new hash accepts the password it was made from", "statement": "Whatever the method, the number of rounds and the random salt, the hash made for a password accepts that password and carries the prefix of the method.", "quantifier": "all passwords, methods, rounds and salts, and all hash functions with the documented laws of crypt(3)", "why_tests_cant": "all passwords and salts", "anchors": ["modules/pam_unix/passverify.c:create_password_hash", "modules/pam_unix/passverify.c:verify_pwd_hash"]}
{"id": "C71", "title": "pam_unix: account and password aging", "statement": "The answer for a shadow entry on a day is: account expired; password change enforced; password expired for too long; expired; changed too recently; or fine, with a warning within the warning period: each exactly on the days shadow(5) says. As days go by without a change the answer never gets milder.", "quantifier": "all shadow entries and days", "why_tests_cant": "all combinations of six fields and days, boundaries included", "anchors": ["modules/pam_unix/passverify.c:check_shadow_expiry"]}
{"id": "C72", "title": "pam_unix: options", "statement": "A word is in force exactly if an argument gives it, whatever the other arguments and their order; empty passwords are refused unless nullok is given and the application allows them; the hash method is that of the last argument naming one; numbers are those of the last argument giving them, kept within their range.", "quantifier": "all argument lists, flags and contents of /etc/login.defs", "why_tests_cant": "unbounded argument lists in any order", "anchors": ["modules/pam_unix/support.c:_set_ctrl", "modules/pam_unix/support.h:unix_args"]}
{"id": "C73", "title": "unix_chkpwd: nobody learns about other people's passwords", "statement": "Run by someone who is neither root nor asks about their own name, the set-user-id helper behaves as it would with the caller's own rights: what the shadow database holds and the caller cannot read has no influence on the outcome. Otherwise it answers success exactly if the stored hash accepts the password that came in on standard input, and gives the age of the password as documented.", "quantifier": "all accounts, callers, arguments, inputs and ways the input arrives in pieces", "why_tests_cant": "non-interference is about all pairs of shadow databases", "anchors": ["modules/pam_unix/unix_chkpwd.c:main", "modules/pam_unix/passverify.c:helper_verify_password"]}
{"id": "C74", "title": "pam_unix: which passwords are accepted", "statement": "A password is found right exactly if the hash of the account, in whichever database it is kept, accepts it, if the process is entitled to know and the helper can be run. Whatever fails, a password is found right only if the stored hash accepts it, or, if it did not get through to the helper and empty passwords are allowed, accepts the empty one. A process without any of root's rights asking about someone else learns nothing it could not read itself.", "quantifier": "all accounts, processes, passwords and failures of system calls", "why_tests_cant": "all failures of the helper and all identities", "anchors": ["modules/pam_unix/support.c:_unix_verify_password", "modules/pam_unix/support.c:_unix_run_helper_binary"]}
{"id": "C75", "title": "pam_unix: failures are counted", "statement": "The third failure in a row for a user with one handle, and each further one, is reported as PAM_MAXTRIES; a success starts the count again; failures of other users do not count.", "quantifier": "all sequences of attempts with a handle", "why_tests_cant": "unbounded histories", "anchors": ["modules/pam_unix/support.c:_unix_verify_password"]}
{"id": "C76", "title": "pam_unix: account management", "statement": "pam_acct_mgmt answers that an account is expired, that its password is expired or has to be changed, or that all is well, exactly as the shadow entry says; no_pass_expiry waives the age of the password if this module did not authenticate the user; the user is told, and warned the right number of days ahead, unless silence is asked for. Whatever fails, without broken_shadow an account in the shadow database is let in only on the strength of an entry that was read.", "quantifier": "all accounts, shadow entries, days, options and failures of the helper", "why_tests_cant": "all combinations of entries, days and failures", "anchors": ["modules/pam_unix/pam_unix_acct.c:pam_sm_acct_mgmt", "modules/pam_unix/support.c:_unix_verify_user"]}
{"id": "C77", "title": "pam_unix: authentication", "statement": "pam_authenticate succeeds exactly for an account without a password where those are let in (nullok, or nullresetok and a change is due), and else for a password the hash of the account accepts; a password is asked for unless the account has none; errors are passed on. Without nullok and nullresetok nobody gets in without a password that is not empty and that the stored hash accepts, whatever fails. The check for an empty password does the same work whether the user exists or not.", "quantifier": "all accounts, options, passwords and failures of the helper", "why_tests_cant": "all combinations, and all failures", "anchors": ["modules/pam_unix/pam_unix_auth.c:pam_sm_authenticate", "modules/pam_unix/pam_unix_auth.c:pam_sm_setcred", "modules/pam_unix/support.c:_unix_blankpasswd"]}
{"id": "C78", "title": "pam_unix: changing one entry of /etc/passwd or /etc/shadow", "statement": "When pam_unix stores a new password hash in the user database or the shadow database, then wherever it is stopped, and whatever system call fails, the database is either exactly as it was or is complete: every other user's entry is unchanged and in its place, the user's own entry differs only in its hash and, in the shadow database, the day of the last change; a user without a shadow entry gets one at the end. The new file never gives more rights than the old one did. If nothing fails the change is made.", "quantifier": "all contents of the files, users, hashes, crash points and failures of system calls", "why_tests_cant": "every crash point and every failure, for files of any length", "anchors": ["modules/pam_unix/passverify.c:unix_update_passwd", "modules/pam_unix/passverify.c:unix_update_shadow"]}
{"id": "C79", "title": "pam_unix: a password change as a whole", "statement": "A change of a user's password, over the file of old passwords, the shadow database and the user database, leaves other accounts alone and the account usable wherever it is stopped: the hash that counts is the old or the new one. If success is reported the new one counts, and whoever may check the user's password finds a password right exactly if the new hash accepts it. If nothing fails, success is reported.", "quantifier": "all databases, users, hashes, crash points and failures", "why_tests_cant": "crash points between two files", "anchors": ["modules/pam_unix/pam_unix_passwd.c:_do_setpass", "modules/pam_unix/unix_update.c:set_password"]}
{"id": "C80", "title": "unix_update: who may change what", "statement": "The helper that changes passwords does so only for root, or for a user named by someone who gives that user's current password; it changes files only while it holds the lock, and leaves the lock released; the change is that of C79. With the right password on standard input the change is made.", "quantifier": "all callers, arguments, inputs, ways the input arrives, databases and failures", "why_tests_cant": "all callers and failures", "anchors": ["modules/pam_unix/unix_update.c:main", "modules/pam_unix/unix_update.c:set_password", "modules/pam_unix/passverify.c:lock_pwdf"]}
{"id": "C81", "title": "pam_unix: the password service", "statement": "pam_chauthtok changes files only in its second phase, only for a user of /etc/passwd, only while the lock is held, only if the old password that was given is right, if the age of the password allows it, and to a password that is acceptable: not empty, not longer than 512 bytes, not the old one and, unless root asks, long enough and not remembered. A new password is asked for up to three times, until one is acceptable. After a change has been reported the new password, and no other the new hash does not accept, is found right. If nothing goes wrong the change is made.", "quantifier": "all users, databases, options, answers, crash points and failures", "why_tests_cant": "all combinations of answers, failures and crash points", "anchors": ["modules/pam_unix/pam_unix_passwd.c:pam_sm_chauthtok", "modules/pam_unix/pam_unix_passwd.c:_pam_unix_approve_pass", "modules/pam_unix/pam_unix_passwd.c:_unix_verify_shadow"]}
{"id": "C82", "title": "pam_unix: old passwords are remembered", "statement": "With remember=N, the last N passwords of a user that were replaced are refused as new ones, and the entries of other users are kept; a password none of the remembered hashes accepts is not refused on that account.", "quantifier": "all histories of changes of any users, files of old passwords, and failures", "why_tests_cant": "unbounded histories", "anchors": ["modules/pam_unix/pam_unix_passwd.c:check_old_password", "modules/pam_unix/passverify.c:save_old_password"]}
{"id": "C83", "title": "pam_listfile: lists of users, terminals, hosts, groups and shells", "statement": "With complete options, pam_listfile answers success exactly if the item (the user, the terminal without /dev/, the remote host, the remote user, the user's shell, or one of the user's groups) is on the list and sense=allow is given, or it is not and sense=deny is given; users apply= does not name are ignored; a list that everybody may write to or that is not a regular file refuses; an unreadable list gives the answer of onerr=. With an option that is not understood, or a missing one, every call fails unless onerr=succeed is given.", "quantifier": "all lists of options, account databases, items and contents of the list", "why_tests_cant": "files of any length and every combination of options in any order", "anchors": ["modules/pam_listfile/pam_listfile.c:pam_listfile"]}
{"id": "C84", "title": "pam_wheel: members of one group only", "statement": "pam_wheel refuses invokers that do not belong to the group (wheel if there is one, else the group with id 0, or the one named), by their primary group or the group's list of members; with deny it refuses those that do. It gives success only with trust, and otherwise says nothing. With root_only it says nothing about targets other than root. An invoker that cannot be determined is refused. This holds if no other account has the invoker's user id.", "quantifier": "all options in any order, account and group databases, invokers and targets", "why_tests_cant": "every database and combination of options", "anchors": ["modules/pam_wheel/pam_wheel.c:perform_check", "modules/pam_wheel/pam_wheel.c:_pam_parse", "libpam/pam_modutil_ingroup.c:pam_modutil_user_in_group_uid_gid"]}
{"id": "C85", "title": "pam_nologin: closed while the file is there", "statement": "While the nologin file can be opened, every user whose id is not root's is refused by pam_nologin, and so are unknown users, whatever is wrong with the file's contents; its text is shown to them as an error message. Root is let in and sees the text. Without the file everybody passes (success with successok, otherwise the module is ignored).", "quantifier": "all users, options, files and failures to read them", "why_tests_cant": "every failure, size and content of the file", "anchors": ["modules/pam_nologin/pam_nologin.c:perform_check", "modules/pam_nologin/pam_nologin.c:parse_args"]}
{"id": "C86", "title": "pam_shells: listed shells only", "statement": "pam_shells succeeds exactly for known users whose login shell (/bin/sh if the field is empty) is a line of /etc/shells that begins with a slash, if /etc/shells is a regular file that not everybody may write to.", "quantifier": "all users and contents of /etc/shells", "why_tests_cant": "files and lines of any length", "anchors": ["modules/pam_shells/pam_shells.c:perform_check", "modules/pam_shells/pam_shells.c:check_file"]}
{"id": "C87", "title": "pam_securetty: where root may log in", "statement": "pam_securetty lets users other than root pass. Root, and users that do not exist, pass only at a terminal that is a line of /etc/securetty or, without noconsole, that the kernel's command line names as a console or that is an active console; and everywhere if there is no /etc/securetty. If /etc/securetty may be written by everybody or is not a regular file they are refused.", "quantifier": "all users, terminals, options, contents of /etc/securetty, command lines of the kernel and lists of consoles", "why_tests_cant": "every content of three files", "anchors": ["modules/pam_securetty/pam_securetty.c:securetty_perform_check"]}
{"id": "C88", "title": "pam_usertype, pam_rootok, pam_localuser: what kind of account", "statement": "pam_usertype issystem succeeds exactly for accounts whose id is the overflow id, or below UID_MIN and not above SYS_UID_MAX, where these are the numbers in /etc/login.defs if they are proper ids and else the built-in ones; isregular exactly for the others. pam_rootok succeeds only if the real user id is 0. pam_localuser succeeds exactly if a line of the file begins with the user's name and a colon.", "quantifier": "all ids, databases, options, values in /etc/login.defs and contents of /etc/passwd", "why_tests_cant": "all 2^32 ids and texts of any length", "anchors": ["modules/pam_usertype/pam_usertype.c:pam_usertype_is_system", "modules/pam_usertype/pam_usertype.c:pam_usertype_get_id", "modules/pam_rootok/pam_rootok.c:check_for_root", "modules/pam_localuser/pam_localuser.c:pam_localuser"]}
{"id": "C89", "title": "pam_env: what pam_env.conf does to the environment", "statement": "Each line of pam_env.conf is a variable with DEFAULT and OVERRIDE values, of which the last of each kind counts. In the values ${NAME} and @{NAME} are replaced by the PAM environment variable or PAM item (or HOME and SHELL of the user) at that moment, a backslash takes the meaning from $, @ and backslash. The variable gets the value of OVERRIDE if that is not empty, else that of DEFAULT; with neither it is removed. Lines that are no such entries change nothing. pam_env reads its configuration, then, if that went well, /etc/environment unless readenv=0, then, with user_readenv=1, the file in the user's home directory with the user's privileges.", "quantifier": "all files made of entries, comments and continued lines, all environments and PAM items, all arguments", "why_tests_cant": "files, values and nestings of any length, and every environment they start from", "anchors": ["modules/pam_env/pam_env.c:_parse_line", "modules/pam_env/pam_env.c:_expand_arg", "modules/pam_env/pam_env.c:_check_var", "modules/pam_env/pam_env.c:_parse_config_file", "modules/pam_env/pam_env.c:handle_env"]}
{"id": "C90", "title": "pam_env: what /etc/environment does", "statement": "A line NAME=value of /etc/environment, perhaps after the word export, sets the variable to the value without a leading quote and, if there was one, without a quote at the end; a line NAME removes it if it is set; names consist of letters, digits and underscores, and every other line changes nothing. Reading the file never fails.", "quantifier": "all contents of the file and all environments", "why_tests_cant": "files and lines of any length", "anchors": ["modules/pam_env/pam_env.c:_parse_env_file", "modules/pam_env/pam_env.c:read_file"]}
{"id": "C91", "title": "pam_env: what it depends on", "statement": "With the caller's privileges pam_env reads no file but the two configured ones. Nothing in the user's home directory makes a difference unless user_readenv=1 is given, and then only the one configured file, read with the user's privileges. Whatever these files contain, there is no access outside the environment's memory, the environment stays usable, and the result is PAM_SUCCESS, PAM_IGNORE, PAM_ABORT or PAM_SESSION_ERR.", "quantifier": "all contents of all files, arguments, users and environments", "why_tests_cant": "it is about every file that could have been there", "anchors": ["modules/pam_env/pam_env.c:handle_env", "modules/pam_env/pam_env.c:_pam_parse"]}
{"id": "C92", "title": "SHA-1 of pam_timestamp", "statement": "sha1_init, sha1_update with the parts of a message one after the other, and sha1_output give the SHA-1 digest (FIPS 180) of the message, however it is cut into parts of at most 2^32 bytes; sha1_output may be called at any time and more parts may follow; nothing is read or written outside the buffers.", "quantifier": "all messages and all ways to cut them", "why_tests_cant": "messages of any length, cut in any way; the buffer, the carry of the length counter and the padding meet at every remainder", "anchors": ["modules/pam_timestamp/sha1.c:sha1_init", "modules/pam_timestamp/sha1.c:sha1_update", "modules/pam_timestamp/sha1.c:sha1_output", "modules/pam_timestamp/sha1.c:sha1_process"]}
{"id": "C93", "title": "HMAC of pam_timestamp", "statement": "hmac_sha1_generate gives the HMAC of RFC 2104 with SHA-1 for every key of at least 20 bytes and every text (both at most 2^32 bytes), and no MAC for a shorter key.", "quantifier": "all keys and texts", "why_tests_cant": "keys shorter than, as long as and longer than a block, texts of any length", "anchors": ["modules/pam_timestamp/hmacsha1.c:hmac_sha1_generate"]}
{"id": "C94", "title": "MD5 of pam_unix and pam_namespace", "statement": "MD5Init, MD5Update with the parts of a message one after the other, and MD5Final give the MD5 digest (RFC 1321) of the message, however it is cut and whatever the context contained before; nothing is read or written outside the buffers.", "quantifier": "all messages, all ways to cut them, all former contents of the context", "why_tests_cant": "messages of any length, cut in any way, and memory that is not initialised", "anchors": ["modules/pam_unix/md5.c:MD5Init", "modules/pam_unix/md5.c:MD5Update", "modules/pam_unix/md5.c:MD5Final", "modules/pam_unix/md5.c:MD5Transform", "modules/pam_namespace/md5.c:MD5Update"]}
{"id": "C95", "title": "The MD5 password hash of pam_unix", "statement": "crypt_md5 gives the \"$1$\" hash of the password with the salt of the setting (what is behind \"$1$\", up to the next '$', at most eight bytes). A stored hash used as the setting gives itself for the same password, and gives itself for another password only if the digests of the thousand rounds agree. The result is \"$1$\", the salt, '$' and 22 characters of ./0-9A-Za-z.", "quantifier": "all passwords, all settings, all former contents of the contexts", "why_tests_cant": "passwords and settings of any length and content", "anchors": ["modules/pam_unix/md5_crypt.c:crypt_md5", "modules/pam_unix/md5_crypt.c:to64"]}
{"id": "C96", "title": "When pam_timestamp lets a user in", "statement": "With an absolute timestamp directory of less than 4096 bytes, a timeout below 2^62 seconds, a clock after 1970 and login times between 1970 and 2038, pam_timestamp's authentication returns PAM_SUCCESS exactly if: every directory on the way is root's and writable by root only, or missing; the file of the request (requesting user, terminal, target user) is a regular file of root's whose contents are the path, a time and the HMAC of these under a key of at least 20 bytes; the requesting user has been logged in since that time or earlier; and the time is less than the timeout ago or less than twice the timeout ahead. In all other cases it returns PAM_AUTH_ERR.", "quantifier": "all file systems, PAM items, arguments, file contents, keys, utmp contents and clock readings", "why_tests_cant": "names, directory trees, file contents and times have no bound; every way to get in has to be excluded", "anchors": ["modules/pam_timestamp/pam_timestamp.c:pam_sm_authenticate", "modules/pam_timestamp/pam_timestamp.c:check_dir_perms", "modules/pam_timestamp/pam_timestamp.c:get_timestamp_name", "modules/pam_timestamp/pam_timestamp.c:check_login_time", "modules/pam_timestamp/pam_timestamp.c:timestamp_good"]}
{"id": "C97", "title": "Time stamps written by pam_timestamp", "statement": "What pam_timestamp writes when a session is opened lets the same request in later while the key, the login and the window allow it. A copy of it is not accepted for a request with another path, and what an interrupted attempt leaves behind is not accepted. The path determines who asks, from which terminal and to become whom, if names of terminals have no ':' and names of requesting users no '/'.", "quantifier": "all requests, all pairs of requests, all failures of the writing calls", "why_tests_cant": "pairs of arbitrary names and a crash or short write at any point", "anchors": ["modules/pam_timestamp/pam_timestamp.c:pam_sm_open_session", "modules/pam_timestamp/pam_timestamp.c:format_timestamp_name", "modules/pam_timestamp/pam_timestamp.c:check_tty"]}
{"id": "C98", "title": "The key of pam_timestamp", "statement": "Once the key file exists it is never changed, whatever fails in however many runs; every MAC ever made or compared is the HMAC with what is in the file, of at least 20 bytes. A key that is created consists of bytes read from the random device. A key file shorter than 20 bytes lets nobody in and no time stamp be written.", "quantifier": "all histories of runs with all failures of the calls in them", "why_tests_cant": "histories of any length with a failure at any point", "anchors": ["modules/pam_timestamp/hmacsha1.c:hmac_key_create", "modules/pam_timestamp/hmacsha1.c:hmac_key_read", "modules/pam_timestamp/hmacsha1.c:hmac_sha1_generate_file"]}
{"id": "C99", "title": "pam_timestamp_check", "statement": "pam_timestamp_check exits with 0 exactly if the target user's name has no '.', '/' or '%', the default directory is safe, and the file of the request exists with a modification time within the window of five minutes by which the invoking user was logged in. It looks at the same file as the module. It succeeds whenever the module with the default timeout would, if the file was modified when its time stamp says.", "quantifier": "all users, terminals, target users, file systems, utmp contents and clock readings", "why_tests_cant": "names and directory trees have no bound", "anchors": ["modules/pam_timestamp/pam_timestamp.c:main"]}
{"id": "C100", "title": "Prompts and answers of misc_conv", "statement": "Without time limits, misc_conv answers every prompt with the next line of input, whole and without its newline, gives other messages no reply, shows all messages in order on the right output and leaves the lines that were not asked for; lines must fit into the buffer and have no NUL. At the end of the input a prompt is answered with no string, with PAM_SUCCESS. In every case the outcome is PAM_SUCCESS with one reply for each message or PAM_CONV_ERR with no replies.", "quantifier": "all lists of messages, all input, any terminal settings", "why_tests_cant": "message lists and input have no bound", "anchors": ["libpam_misc/misc_conv.c:misc_conv", "libpam_misc/misc_conv.c:read_string"]}
{"id": "C101", "title": "misc_conv does not echo passwords", "statement": "Whenever misc_conv reads the answer to a prompt of style PAM_PROMPT_ECHO_OFF from a terminal, in every attempt, echo is off; after every conversation, successful or not, the terminal has the settings it had before.", "quantifier": "all lists of messages, input, terminal settings and alarms that interrupt reading", "why_tests_cant": "interruptions at any point, any number of attempts", "anchors": ["libpam_misc/misc_conv.c:read_string"]}
{"id": "C102", "title": "The time limit of misc_conv", "statement": "If the time limit has passed when a prompt is due, the prompt is not shown, nothing is read, and the conversation fails with PAM_CONV_ERR. A conversation during which the time ran out does not succeed.", "quantifier": "all lists of messages, input, clock readings and alarms", "why_tests_cant": "depends on the schedule: when alarms go off relative to reading", "anchors": ["libpam_misc/misc_conv.c:get_delay", "libpam_misc/misc_conv.c:read_string"]}
{"id": "C103", "title": "pam_misc_setenv and pam_misc_paste_env", "statement": "After any history of pam_putenv calls, pam_misc_setenv sets the variable to the value and changes no other; with readonly it changes nothing and returns PAM_PERM_DENIED if the variable is set. pam_misc_paste_env is the same as calling pam_putenv with each string in turn up to the first failure, whose code it returns. Pasting the result of pam_getenvlist into a new handle makes the same environment.", "quantifier": "all histories, names without '=', values and lists of strings", "why_tests_cant": "histories and lists have no bound", "anchors": ["libpam_misc/help_env.c:pam_misc_setenv", "libpam_misc/help_env.c:pam_misc_paste_env"]}
{"id": "C104", "title": "The descriptors of helper programs", "statement": "When pam_modutil_sanitize_helper_fds succeeds, each standard descriptor that was to be redirected is the read end of a pipe without a writer or /dev/null as asked, each that was to be left alone is as before, and no other descriptor is open. It succeeds if no system call fails. This holds whichever descriptors were open before.", "quantifier": "all descriptor tables, modes, limits and failures of system calls", "why_tests_cant": "any set of descriptors may be open, with standard ones closed", "anchors": ["libpam/pam_modutil_sanitize.c:pam_modutil_sanitize_helper_fds"]}
{"id": "C105", "title": "A new home directory is a complete copy", "statement": "When the helper of pam_mkhomedir succeeds for a home directory that did not exist, the home directory belongs to the user, has the mode asked for, and contains exactly the directories, files and symbolic links of the skeleton directory laid over the vendor's, all owned by the user, with the umask applied, and nothing else; when nothing fails it succeeds.", "quantifier": "all trees of skeleton and vendor files, file systems, arguments and failures of system calls", "why_tests_cant": "trees have any depth and size, and any system call may fail", "anchors": ["modules/pam_mkhomedir/mkhomedir_helper.c:create_homedir", "modules/pam_mkhomedir/mkhomedir_helper.c:copy_entry"]}
{"id": "C106", "title": "Making a home directory changes nothing that exists", "statement": "Whatever fails and whatever the result, the helper of pam_mkhomedir leaves every object that existed as it was; what it adds is the home directory, what is in it, and missing parents, which belong to root with mode 0755. If the home directory exists it succeeds and does nothing; for an unknown user, a bad number or a relative home directory it fails and does nothing.", "quantifier": "all file systems, trees, arguments and failures of system calls", "why_tests_cant": "any system call may fail at any point", "anchors": ["modules/pam_mkhomedir/mkhomedir_helper.c:main", "modules/pam_mkhomedir/mkhomedir_helper.c:make_parent_dirs"]}
{"id": "C107", "title": "The umask of pam_mkhomedir", "statement": "The umask given as umask= applies to the home directory and to the files in it; without it HOME_MODE and then UMASK of login.defs decide.", "quantifier": "all option and login.defs values", "why_tests_cant": "the texts have no bound; two programs parse the same text", "anchors": ["modules/pam_mkhomedir/pam_mkhomedir.c:_pam_conv_str_umask_to_homemode", "modules/pam_mkhomedir/mkhomedir_helper.c:main"]}
{"id": "C108", "title": "A password database lets in exactly the users whose password fits", "statement": "pam_userdb authenticates a user exactly when a database is named and can be opened and the password that counts (the one already there with use_first_pass or try_first_pass, otherwise the answer to the prompt) is the one stored for that user: as plain text, as a hash with crypt=crypt, or in the key with key_only; icase ignores case. Nobody gets in with the entry of another user.", "quantifier": "all databases, arguments, users and passwords", "why_tests_cant": "databases and texts have no bound and may contain any bytes", "anchors": ["modules/pam_userdb/pam_userdb.c:user_lookup", "modules/pam_userdb/pam_userdb.c:pam_sm_authenticate"]}
{"id": "C109", "title": "The codes and the account check of pam_userdb", "statement": "A user the database does not know is reported as PAM_USER_UNKNOWN (no error with unknown_ok), a wrong password as PAM_AUTH_ERR, a missing or unreadable database as an error of the service, and the account is good exactly if the database knows the user.", "quantifier": "all databases, arguments, users and passwords", "why_tests_cant": "databases and texts have no bound", "anchors": ["modules/pam_userdb/pam_userdb.c:pam_sm_acct_mgmt", "modules/pam_userdb/pam_userdb.c:_pam_parse"]}
{"id": "C110", "title": "Fields of a line of namespace.conf", "statement": "A line of namespace.conf is split into its fields at blanks outside quotes; quotes and backslashes are taken away as documented, and what was quoted is kept as it is. Nothing is ever written or read outside of the buffer. Any list of fields can be written so that it is read back.", "quantifier": "all lines and all lists of fields", "why_tests_cant": "lines have no bound, and quotes and escapes can be combined in any way", "anchors": ["modules/pam_namespace/argv_parse.c:argv_parse"]}
{"id": "C111", "title": "What a line of namespace.conf means", "statement": "Each line of namespace.conf that is not a comment gives the directory, the prefix of its instances, the method with its flags, and the list of users which it names, with $HOME and $USER replaced. A line with an unknown method, a relative path, a path with .., or a path that is too long is refused: the session fails, or the line is passed over with ignore_config_error. Drop-in files are read after it, sorted by name, those of the administrator hiding those of the vendor. No line makes the program crash.", "quantifier": "all lines, files, users and home directories", "why_tests_cant": "lines and files have no bound", "anchors": ["modules/pam_namespace/pam_namespace.c:process_line", "modules/pam_namespace/pam_namespace.c:parse_method", "modules/pam_namespace/pam_namespace.c:expand_variables", "modules/pam_namespace/pam_namespace.c:parse_config_file"]}
{"id": "C112", "title": "Who gets which directories", "statement": "A directory is polyinstantiated for all users but those in its list, or after ~ only for those. When a session is opened, exactly the directories that are polyinstantiated for the user are set up, in the order of the configuration and in a namespace of its own; with unmnt_remnt those of the requesting user are unmounted before, with unmnt_only they are only unmounted. If anything fails, the session fails.", "quantifier": "all configurations, users and results of the system calls", "why_tests_cant": "there are arbitrarily many directories, and each step may fail", "anchors": ["modules/pam_namespace/pam_namespace.c:ns_override", "modules/pam_namespace/pam_namespace.c:setup_namespace"]}
{"id": "C113", "title": "Instances of different users are different", "statement": "Two users never get the same instance of a directory, unless it is shared: the name of the instance contains that of the user, or with the context and level methods that of the context and of the user, or a hash of them.", "quantifier": "all users, contexts, prefixes and hash functions", "why_tests_cant": "names and contexts have no bound", "anchors": ["modules/pam_namespace/pam_namespace.c:poly_name", "modules/pam_namespace/pam_namespace.c:set_polydir_paths"]}
{"id": "C114", "title": "Users cannot redirect the paths that are opened", "statement": "Whatever users do to directories to which they may write, while pam_namespace opens a path as root: it opens either the directory of the system to which the path led before, or a directory below the first directory on the path that users control, without following links there; never another directory of the system.", "quantifier": "all file systems, paths, and all changes by users between the system calls", "why_tests_cant": "a race has arbitrarily many schedules", "anchors": ["modules/pam_namespace/pam_namespace.c:secure_opendir"]}
{"id": "C115", "title": "Owner and mode of an instance", "statement": "The instance of a directory that is used has the owner, group and mode of the directory, and is in a directory that belongs to root and is closed to all others. If its creation fails or is interrupted, no instance with other attributes is left to be used.", "quantifier": "all directories, failures and crash points", "why_tests_cant": "a crash can happen between any two system calls", "anchors": ["modules/pam_namespace/pam_namespace.c:create_instance", "modules/pam_namespace/pam_namespace.c:check_inst_parent"]}
{"id": "C116", "title": "The end of a session", "statement": "When a session is closed, temporary instances are removed; with unmount_on_close all directories that were set up for the user are unmounted. If that fails, the caller is told.", "quantifier": "all configurations, arguments and results of unmounting", "why_tests_cant": "there are arbitrarily many directories, and each may fail to be unmounted", "anchors": ["modules/pam_namespace/pam_namespace.c:pam_sm_close_session", "modules/pam_namespace/pam_namespace.c:orig_namespace", "modules/pam_namespace/pam_namespace.c:cleanup_tmpdirs"]}
{"id": "C117", "title": "pam_exec runs the command and reports how it ended", "statement": "pam_exec runs the first argument that is not one of its options, with exactly the arguments that follow; for an option type= with another type nothing is run and the module is ignored. It succeeds if, and only if, the command was run and ended with status 0. With stdout the user is shown each line of the output, and without quiet that the command failed.", "quantifier": "all arguments, results of the system calls, and commands", "why_tests_cant": "arguments and output have no bound, and each system call may fail", "anchors": ["modules/pam_exec/pam_exec.c:call_exec", "modules/pam_exec/pam_exec.c:pam_sm_authenticate"]}
{"id": "C118", "title": "What the command of pam_exec is told", "statement": "The command of pam_exec gets the password on its standard input if, and only if, expose_authtok is given and the function is authentication or a change of the password; it finds the service, user, terminal, remote host, remote user and the type in its environment, and the other variables of the handle.", "quantifier": "all arguments, passwords, items and environments", "why_tests_cant": "passwords and environments have no bound", "anchors": ["modules/pam_exec/pam_exec.c:call_exec"]}
{"id": "C119", "title": "pam_exec leaves the application as it was", "statement": "After pam_exec, the application has the same handler of SIGCHLD and the same open descriptors as before.", "quantifier": "all arguments, commands and results of the system calls", "why_tests_cant": "each system call may fail", "anchors": ["modules/pam_exec/pam_exec.c:call_exec"]}
{"id": "C120", "title": "X keys are handed over only if both users agree", "statement": "pam_xauth looks at a user's keys, and hands one to the target user, only if the target is root, the configured target user or no system account, and both users agree: they are the same, or the export file of the one lists the other (or does not exist, and it is not root handing to somebody else) and the import file of the other lists the first (or does not exist). Then the key for the display that xauth, run as the caller, finds is written as the target user into a new file in their home directory, to which XAUTHORITY of the session points. Otherwise the session fails.", "quantifier": "all arguments, accounts, patterns, files, displays and keys", "why_tests_cant": "files and patterns have no bound, and each system call may fail", "anchors": ["modules/pam_xauth/pam_xauth.c:check_acl", "modules/pam_xauth/pam_xauth.c:pam_sm_open_session"]}
{"id": "C121", "title": "pam_xauth reads its limits as they are written", "statement": "systemuser= and targetuser= set the limits of pam_xauth to the numbers given; one that is not a number changes nothing; without them system accounts are those up to 499.", "quantifier": "all argument lists", "why_tests_cant": "arguments have no bound", "anchors": ["modules/pam_xauth/pam_xauth.c:pam_sm_open_session"]}
{"id": "C122", "title": "pam_xauth removes the files it makes", "statement": "A file pam_xauth made for a session is gone if the session could not be opened, and is removed, with the privileges of the user it was made for, when the session is closed; nothing else is removed.", "quantifier": "all sessions and results of the system calls", "why_tests_cant": "each system call may fail, and sessions may be opened again", "anchors": ["modules/pam_xauth/pam_xauth.c:pam_sm_open_session", "modules/pam_xauth/pam_xauth.c:pam_sm_close_session"]}
{"id": "C123", "title": "A session opened by pam_xauth has its key", "statement": "If there is a display and an xauth and the users agree, then a session that is opened successfully has been handed the key.", "quantifier": "all sessions and results of the system calls", "why_tests_cant": "each system call may fail", "anchors": ["modules/pam_xauth/pam_xauth.c:pam_sm_open_session"]}
{"id": "C124", "title": "pam_ftp lets in only guests", "statement": "pam_ftp succeeds only for a user whose name is in the users= list (anonymous or ftp if there is none) and who answered the guest prompt; then PAM_USER is the first name of the list (ftp if there is none), and, unless ignore is given, PAM_RUSER and PAM_RHOST are the two sides of the @ in the answer. Anybody else is asked for a password, which becomes PAM_AUTHTOK, and fails. It never reads through a null pointer.", "quantifier": "all users, argument lists and answers of the application", "why_tests_cant": "lists and answers have no bound", "anchors": ["modules/pam_ftp/pam_ftp.c:lookup", "modules/pam_ftp/pam_ftp.c:pam_sm_authenticate"]}
{"id": "C125", "title": "pam_rhosts trusts what ruserok(3) trusts", "statement": "pam_rhosts succeeds exactly if user, remote host and remote user are known and ruserok(3) grants access, asked as for the superuser exactly if the user is the one named by superuser= or has uid 0; otherwise the result is an authentication error, or that the user is unknown if they have no account.", "quantifier": "all items, argument lists, accounts and answers of ruserok", "why_tests_cant": "names have no bound", "anchors": ["modules/pam_rhosts/pam_rhosts.c:pam_sm_authenticate"]}
{"id": "C126", "title": "The constant modules give the results they promise", "statement": "pam_canonicalize_user leaves PAM_USER as the name in the account database and is ignored, or fails if there is no such account. pam_deny neither succeeds nor is ignored. pam_permit succeeds, and leaves a name that is not empty. pam_debug gives, for each function, the code named by the first argument for that function, and success without one.", "quantifier": "all functions, names, databases and argument lists", "why_tests_cant": "names and argument lists have no bound", "anchors": ["modules/pam_canonicalize_user/pam_canonicalize_user.c:pam_sm_authenticate", "modules/pam_deny/pam_deny.c", "modules/pam_permit/pam_permit.c", "modules/pam_debug/pam_debug.c:parse_args"]}
{"id": "C127", "title": "pam_faildelay sets the configured delay", "statement": "pam_faildelay is always ignored. With delay= arguments it sets the delay to the last of them, in microseconds, if all of them are numbers up to 4294967295; without them to the FAIL_DELAY of login.defs, in seconds, if that is a number up to 4294. Otherwise it sets none.", "quantifier": "all argument lists and login.defs files", "why_tests_cant": "arguments and files have no bound", "anchors": ["modules/pam_faildelay/pam_faildelay.c:pam_sm_authenticate", "libpam/pam_modutil_searchkey.c:pam_modutil_search_key"]}
{"id": "C128", "title": "pam_umask does what its configuration and the GECOS entry say", "statement": "Opening a session sets the mask given by the last umask= argument, else by UMASK of login.defs, else of default/login. Then, if usergroups are on, the user is not root and their group has their name, the group digit of the mask becomes the owner digit. Then every pri=, ulimit= and umask= between the commas of the GECOS entry is done, in order. Nothing else is done.", "quantifier": "all argument lists, files, accounts and GECOS entries", "why_tests_cant": "files and entries have no bound", "anchors": ["modules/pam_umask/pam_umask.c:parse_option", "modules/pam_umask/pam_umask.c:setup_limits_from_gecos", "modules/pam_umask/pam_umask.c:pam_sm_open_session"]}
{"id": "C129", "title": "pam_echo tells what it is configured to tell", "statement": "Unless PAM_SILENT is given, pam_echo tells the text of the file of the last file= argument (up to a NUL, without a newline at its end), or without a file its arguments with a blank between them, with %H %h %s %t %U %u replaced by the items they name and (null) for items that are not set. The first 511 characters of the arguments count and at most 511 more characters than the message has are told. It tells nothing for credentials, the end of a session and the second pass of a password change. No buffer is overrun.", "quantifier": "all items, arguments and files", "why_tests_cant": "texts have no bound", "anchors": ["modules/pam_echo/pam_echo.c:replace_and_print", "modules/pam_echo/pam_echo.c:pam_echo"]}
{"id": "C130", "title": "pam_issue puts the issue file before the prompt, once", "statement": "The first time in a process, pam_issue puts the text of the file of the last issue= argument (/etc/issue without one) before PAM_USER_PROMPT, with the documented escapes replaced unless noesc is given, and is ignored; if the file cannot be read, it fails and the prompt stays. After that it does nothing, for any handle. No buffer is overrun.", "quantifier": "all files, systems, argument lists and prompts", "why_tests_cant": "files have no bound", "anchors": ["modules/pam_issue/pam_issue.c:read_issue_quoted", "modules/pam_issue/pam_issue.c:read_issue_raw", "modules/pam_issue/pam_issue.c:pam_sm_authenticate"]}
{"id": "C131", "title": "pam_motd shows each message once, with the privileges of the user", "statement": "Unless PAM_SILENT is given, pam_motd drops its privileges, tells the first file of the list of files that can be opened, then for each name of a regular file or link in the directories, in byte order and once, the first file of that name; files that are empty, larger than 65536 bytes or not readable are not told. Then it regains its privileges, sets MOTD_SHOWN and is ignored. If privileges cannot be dropped nothing is looked at, and the session fails. The lists are those of the last motd= and motd_dir= arguments, default ones if neither is given.", "quantifier": "all argument lists, directories and files", "why_tests_cant": "lists, directories and files have no bound", "anchors": ["modules/pam_motd/pam_motd.c:pam_split_string", "modules/pam_motd/pam_motd.c:try_to_display_directories_with_overrides", "modules/pam_motd/pam_motd.c:pam_sm_open_session"]}
{"id": "C132", "title": "pam_loginuid succeeds only with the login uid of the account", "statement": "When pam_loginuid succeeds, the login uid of the process is the decimal user id of the account: it was already, or it has been written. Nothing else is ever written. A login uid that cannot be set is an error on the host and ignored in a user namespace or without /proc/self/loginuid. With require_auditd the module also fails unless the audit daemon answers with its pid within 30 answers or there is no audit system to ask.", "quantifier": "all accounts, contents of the proc files, audit answers and arguments", "why_tests_cant": "the answers of the kernel and the audit system cannot be enumerated, and need root", "anchors": ["modules/pam_loginuid/pam_loginuid.c:set_loginuid", "modules/pam_loginuid/pam_loginuid.c:check_auditd", "modules/pam_loginuid/pam_loginuid.c:_pam_loginuid"]}
{"id": "C133", "title": "pam_keyinit: one keyring at a time, revoked by its owner", "statement": "Whatever calls the threads of a process make through pam_keyinit, for whatever users and whatever fails, a thread makes a session keyring only when it has none, and what it revokes is the keyring it made last, once, with the user and group id of its owner.", "quantifier": "all histories of calls in all threads, with all failures of the system", "why_tests_cant": "histories have no bound", "anchors": ["modules/pam_keyinit/pam_keyinit.c:do_keyinit", "modules/pam_keyinit/pam_keyinit.c:kill_keyrings"]}
{"id": "C134", "title": "pam_keyinit revokes the keyring when the last session ends, and only then", "statement": "A keyring made by pam_keyinit is revoked only if the argument revoke was given, and then when credentials are deleted or when the last session that is open is closed, not before and not after.", "quantifier": "all histories of calls in all threads", "why_tests_cant": "histories have no bound", "anchors": ["modules/pam_keyinit/pam_keyinit.c:pam_sm_close_session", "modules/pam_keyinit/pam_keyinit.c:pam_sm_setcred"]}
{"id": "C135", "title": "pam_keyinit leaves the ids of the thread as they were", "statement": "A call of pam_keyinit that changes the user and group id of the calling thread changes them back before it returns, and reports it when that fails.", "quantifier": "all histories of calls, with all failures", "why_tests_cant": "failures of system calls at every point of every history", "anchors": ["modules/pam_keyinit/pam_keyinit.c:do_keyinit", "modules/pam_keyinit/pam_keyinit.c:kill_keyrings"]}
{"id": "C136", "title": "pam_keyinit succeeds only with a keyring of the user", "statement": "When pam_keyinit succeeds in opening a session or establishing credentials, the session has a keyring that belongs to the user and is linked to the keyring of that user, unless force is not given and the session has its own keyring already or the system has none.", "quantifier": "all histories of calls, with all failures", "why_tests_cant": "histories have no bound", "anchors": ["modules/pam_keyinit/pam_keyinit.c:init_keyrings", "modules/pam_keyinit/pam_keyinit.c:do_keyinit"]}
{"id": "C137", "title": "pam_mail sets MAIL to the folder of the account and tells of it", "statement": "When a session is opened or credentials are established, pam_mail sets MAIL (unless noenv is given) to the folder of the account: the directory for mail or that of the last dir= argument that is not empty, a directory for each of the first letters hash= asks for, and the name; or below the home directory after ~. Then, unless nopen is given, it tells what is there: new, old or no mail, by the size and times of a file or the entries of new and cur in a directory; nothing with PAM_SILENT, only new mail with quiet, and that there is none only with empty or standard.", "quantifier": "all argument lists, accounts and mail boxes", "why_tests_cant": "argument lists, names and boxes cannot be enumerated", "anchors": ["modules/pam_mail/pam_mail.c:_pam_parse", "modules/pam_mail/pam_mail.c:get_folder", "modules/pam_mail/pam_mail.c:get_mail_status", "modules/pam_mail/pam_mail.c:_do_mail"]}
{"id": "C138", "title": "pam_mail looks at mail with the privileges of the user, and removes MAIL at the end", "statement": "Whatever the arguments and the system, a mail folder is looked at only after privileges were dropped, and they are regained next; if that fails, the call fails and nothing is told. When a session is closed or credentials are deleted, MAIL is removed unless noenv is given, after telling of mail if close is given.", "quantifier": "all calls, arguments and failures", "why_tests_cant": "failures and argument lists cannot be enumerated", "anchors": ["modules/pam_mail/pam_mail.c:_do_mail"]}
{"id": "C139", "title": "pam_lastlog records each login in its own place and tells of it at the next", "statement": "Whatever happens, a session changes no byte of /var/log/lastlog outside of the record of its user. A session that may update, can tell the user of the last login, locks the record at one of three tries and writes all of it leaves there the time, terminal and host of this login; otherwise it fails. The next session tells exactly that login, but for the parts its arguments leave out. A limit of the file size is lifted only with `unlimited`, before the write, and is put back after it or the session fails.", "quantifier": "all files, users, arguments and failures of a step", "why_tests_cant": "files, ids and failing steps cannot be enumerated", "anchors": ["modules/pam_lastlog/pam_lastlog.c:last_login_read", "modules/pam_lastlog/pam_lastlog.c:last_login_write", "modules/pam_lastlog/pam_lastlog.c:last_login_date", "modules/pam_lastlog/pam_lastlog.c:pam_sm_open_session"]}
{"id": "C140", "title": "pam_lastlog locks out exactly the users who were away too long", "statement": "As authentication pam_lastlog denies a user whose last recorded login is more than the given number of whole days ago (90 without inactive=), and never denies root, a user that never logged in or one with an id beyond LASTLOG_UID_MAX; it has no opinion when the file cannot be read.", "quantifier": "all users, files, times and arguments", "why_tests_cant": "times and files cannot be enumerated", "anchors": ["modules/pam_lastlog/pam_lastlog.c:_pam_auth_parse", "modules/pam_lastlog/pam_lastlog.c:pam_auth", "modules/pam_lastlog/pam_lastlog.c:get_lastlog_uid_max"]}
{"id": "C141", "title": "pam_lastlog tells of the failed logins since the last login", "statement": "With showfailed a session tells, after the last login, how many entries of /var/log/btmp are of the user and not older than the last login, and of the last of them; and nothing if there is none.", "quantifier": "all contents of btmp, users and last logins", "why_tests_cant": "contents of files cannot be enumerated", "anchors": ["modules/pam_lastlog/pam_lastlog.c:last_login_failed"]}
{"id": "C142", "title": "pam_tty_audit switches auditing as the last pattern for the user says", "statement": "Of the arguments enable= and disable=, the last one with a pattern for the user (a pattern of names, `n:m`, `n:` or `:n` for ids, which are taken modulo 2^32) decides whether terminal auditing is on in the session; passwords are logged only with log_passwd. If no argument is for the user nothing is changed; a failing step makes the session fail, and a kernel without auditing makes it ignored.", "quantifier": "all argument lists, users and failures", "why_tests_cant": "argument lists and names cannot be enumerated", "anchors": ["modules/pam_tty_audit/pam_tty_audit.c:parse_uid_range", "modules/pam_tty_audit/pam_tty_audit.c:pam_sm_open_session"]}
{"id": "C143", "title": "pam_tty_audit puts the status back at the end", "statement": "With the module once in the stack and without open_only, a session that was opened and closed with success leaves the status of terminal auditing as it was before; with open_only, or if the opening changed nothing, its end changes nothing.", "quantifier": "all arguments, states and changes by others in between", "why_tests_cant": "states and argument lists cannot be enumerated", "anchors": ["modules/pam_tty_audit/pam_tty_audit.c:pam_sm_open_session", "modules/pam_tty_audit/pam_tty_audit.c:pam_sm_close_session"]}
{"id": "C144", "title": "pam_sepermit: the first line for the user decides", "statement": "Whatever the configuration file contains, the first line that means the user (by name, by @group or by %SELinux user, options after colons, comments and blanks ignored) decides: without SELinux enforcing the user is denied; otherwise the user passes (or, with ignore, is left to the other modules), unless the line is exclusive, the process is root's outside a login session, and the exclusive lock cannot be had. A user no line means is left to the other modules; a file that cannot be read is a service error.", "quantifier": "all configuration files, users, groups and SELinux states", "why_tests_cant": "the file is arbitrary text", "anchors": ["modules/pam_sepermit/pam_sepermit.c:sepermit_match", "modules/pam_sepermit/pam_sepermit.c:pam_sepermit"]}
{"id": "C145", "title": "pam_sepermit: exclusive logins exclude each other", "statement": "At any time at most one login of a user has been granted by an exclusive line, whatever the interleaving of logins and their ends; no such login is granted while processes of the user run, and at its end all processes of the user (unless root) are killed before the lock is given up.", "quantifier": "all histories of logins and ends by any number of processes", "why_tests_cant": "histories are unbounded", "anchors": ["modules/pam_sepermit/pam_sepermit.c:sepermit_lock", "modules/pam_sepermit/pam_sepermit.c:sepermit_unlock", "modules/pam_sepermit/pam_sepermit.c:check_running"]}
{"id": "C146", "title": "pam_setquota sets quotas only for users in the range", "statement": "A quota is set only for the user of the session, and only if the user's id is at least startuid (by default UID_MIN of login.defs, or the built-in value) and, unless enduid is 0, at most enduid; of several settings the last valid one counts. For a user outside the range nothing is changed and the session goes on; an unknown user is an error.", "quantifier": "all argument lists, login.defs values and users", "why_tests_cant": "argument texts and ids cannot be enumerated", "anchors": ["modules/pam_setquota/pam_setquota.c:parse_params", "modules/pam_setquota/pam_setquota.c:str_to_uid", "modules/pam_setquota/pam_setquota.c:pam_sm_open_session"]}
{"id": "C147", "title": "pam_setquota works on the right file system", "statement": "With fs= the quota of the named file system is changed, by mount directory or device, the last such mount; if it is not mounted the session is denied. Without fs= it is the file system the home directory is on.", "quantifier": "all mount tables, home directories and values of fs=", "why_tests_cant": "mount tables are unbounded", "anchors": ["modules/pam_setquota/pam_setquota.c:pam_sm_open_session"]}
{"id": "C148", "title": "pam_setquota changes exactly the limits it is given", "statement": "If no limit was set before, or with overwrite=1, each limit that is given gets the value of its last argument and all others keep theirs; an existing quota is otherwise left alone. If a soft limit is given without the hard one, or the other way round, nothing is changed and the session is denied; with no limits at all nothing is changed.", "quantifier": "all argument lists and quotas", "why_tests_cant": "argument texts and quotas cannot be enumerated", "anchors": ["modules/pam_setquota/pam_setquota.c:parse_dqblk", "modules/pam_setquota/pam_setquota.c:str_to_dqb_num", "modules/pam_setquota/pam_setquota.c:pam_sm_open_session"]}
{"id": "C149", "title": "Module lookups give the entry of the database", "statement": "A module that looks up a user, a group or a shadow entry by name or number gets the entry the C library finds, however many lookups were made before, if it fits into 262144 bytes and there is memory; otherwise it gets none.", "quantifier": "all databases, entry sizes and handles with any data", "why_tests_cant": "entry sizes and earlier lookups are unbounded", "anchors": ["libpam/pam_modutil_getpwnam.c:pam_modutil_getpwnam", "libpam/pam_modutil_getpwuid.c:pam_modutil_getpwuid", "libpam/pam_modutil_getgrnam.c:pam_modutil_getgrnam", "libpam/pam_modutil_getgrgid.c:pam_modutil_getgrgid", "libpam/pam_modutil_getspnam.c:pam_modutil_getspnam"]}
{"id": "C150", "title": "Results of module lookups stay valid until pam_end", "statement": "The entry a module got from a lookup is not changed or released by any later lookup or any module data that is set, and is released exactly once, when the transaction ends. The login name is determined once and stays the same.", "quantifier": "all sequences of lookups and module data, with any failures of memory", "why_tests_cant": "histories are unbounded", "anchors": ["libpam/pam_modutil_getpwnam.c:pam_modutil_getpwnam", "libpam/pam_modutil_getpwuid.c:pam_modutil_getpwuid", "libpam/pam_modutil_getgrnam.c:pam_modutil_getgrnam", "libpam/pam_modutil_getgrgid.c:pam_modutil_getgrgid", "libpam/pam_modutil_getspnam.c:pam_modutil_getspnam", "libpam/pam_modutil_getlogin.c:pam_modutil_getlogin", "libpam/pam_modutil_cleanup.c:pam_modutil_cleanup"]}
{"id": "C151", "title": "pam_prompt hands over the answer and leaves nothing behind", "statement": "pam_prompt asks the conversation function once and gives its result. The answer goes to the caller, or is wiped and released if the caller wants none; the text of the message is wiped, and each piece of memory is released exactly once and never used after.", "quantifier": "all results of the conversation function and of allocations", "why_tests_cant": "the conversation function is any program", "anchors": ["libpam/pam_vprompt.c:pam_vprompt"]}
{"id": "C152", "title": "Audit records are complete and true", "statement": "With auditing in the kernel, an application is told of success only if a record of success, with the operation and the modules that granted it, was sent and taken by the kernel (or the program may not write records); the first pass of a password change alone leaves none. A record the kernel took says success if and only if the application was told so. If auditing is there but fails, the operation fails. Every transaction leaves at least one record. The name given by an unknown user is not recorded.", "quantifier": "all operations, results, stacks, failures of memory and of the audit system, and transactions of any length", "why_tests_cant": "failures at every point and stacks of any length", "anchors": ["libpam/pam_audit.c:_pam_auditlog", "libpam/pam_audit.c:_pam_audit_writelog", "libpam/pam_audit.c:_pam_list_grantors", "libpam/pam_audit.c:_pam_audit_end", "libpam/pam_dispatch.c:_pam_dispatch"]}
{"id": "C153", "title": "The audit record names modules that granted access", "statement": "The record of a successful operation lists modules of the stack that were called in this very operation and returned success, in the order of the stack, and at least one.", "quantifier": "all stacks, module answers and interruptions", "why_tests_cant": "stacks and answers are unbounded", "anchors": ["libpam/pam_audit.c:_pam_list_grantors", "libpam/pam_dispatch.c:_pam_dispatch_aux", "libpam/pam_dispatch.c:_pam_clear_grantors"]}
{"id": "C154", "title": "Modules are loaded once and all are unloaded", "statement": "A transaction opens only the modules its configuration names, an absolute path as written and any other in the directory of modules, each at most once for a configuration; whatever fails, the table of modules is not overrun, and when the transaction has ended each module that was opened has been closed exactly once.", "quantifier": "all configurations, histories of loading, failures of memory and of dlopen", "why_tests_cant": "histories with failures at every point are unbounded", "anchors": ["libpam/pam_handlers.c:_pam_load_module", "libpam/pam_handlers.c:_pam_add_handler", "libpam/pam_handlers.c:_pam_init_handlers", "libpam/pam_handlers.c:_pam_free_handlers"]}
{"id": "C155", "title": "Cleanup functions run while their module is loaded", "statement": "The cleanup function of module data is called only while the module whose code it is is still loaded.", "quantifier": "all histories of a transaction", "why_tests_cant": "histories are unbounded", "anchors": ["libpam/pam_handlers.c:_pam_free_handlers", "libpam/pam_data.c:_pam_free_data", "libpam/pam_end.c:pam_end"]}
{"id": "C156", "title": "set_all takes the limits of the first process", "statement": "With the argument set_all, a session for which the files say nothing gets, for each resource the kernel reports in /proc/1/limits, the soft and hard limit reported there, whatever the limits are; whatever the file holds, the reader stays inside its lines.  The number of open files that unlimited stands for is the decimal number in /proc/sys/fs/nr_open.", "quantifier": "all reports of the kernel, all other files, all sessions", "why_tests_cant": "reports and texts are unbounded", "anchors": ["modules/pam_limits/pam_limits.c:parse_kernel_limits", "modules/pam_limits/pam_limits.c:str2rlimit", "modules/pam_limits/pam_limits.c:str2rlim_t", "modules/pam_limits/pam_limits.c:value_from_file"]}
{"id": "C157", "title": "faillock shows and clears the records it is asked for", "statement": "The command faillock with --reset clears the records of the named user, or of all users, and of nobody else; after that the user is not locked out. Without --reset it changes no record and prints one line for each, in order. A command line with an unknown option or a missing value does nothing. It exits with 0 only if it has done what was asked.", "quantifier": "all command lines, record files, users and failures of the system", "why_tests_cant": "command lines and record files are unbounded", "anchors": ["modules/pam_faillock/main.c:args_parse", "modules/pam_faillock/main.c:do_user", "modules/pam_faillock/main.c:do_allusers", "modules/pam_faillock/main.c:print_in_new_format"]}
{"id": "C158", "title": "pam_pwhistory decides the same with SELinux", "statement": "Where SELinux is in force and pam_pwhistory leaves the history to a helper program, a password change gives the same answer, the same new password and the same history as without. If the helper cannot be run, fails or does not get the password, the change is refused and nothing is saved; it never counts as a password that was not used.", "quantifier": "all options, users, histories, passwords, failures of system calls and ways the password arrives in the helper", "why_tests_cant": "histories, passwords and the ways a pipe delivers bytes are unbounded; a failing system call is hard to provoke", "anchors": ["modules/pam_pwhistory/pam_pwhistory.c:run_save_helper", "modules/pam_pwhistory/pam_pwhistory.c:run_check_helper", "modules/pam_pwhistory/pwhistory_helper.c:main"]}
{"id": "C159", "title": "pam_selinux gives only contexts that the policy allows", "statement": "The security context a session gets from pam_selinux is the default one of the user, or one made from it: with the same SELinux user, a role that was asked for together with the type the policy has for that role, and a level that was asked for or is that of the process. It is one the policy finds valid and, if the policy has levels, within the default. What is refused is told to the audit system.", "quantifier": "all policies, users, answers to any number of questions, environment variables and arguments", "why_tests_cant": "the user may answer and be asked without bound; policies and contexts are arbitrary", "anchors": ["modules/pam_selinux/pam_selinux.c:config_context", "modules/pam_selinux/pam_selinux.c:context_from_env", "modules/pam_selinux/pam_selinux.c:compute_exec_context"]}
{"id": "C160", "title": "pam_selinux sets the contexts of a session and puts them back", "statement": "While SELinux is enforcing, opening a session succeeds only if the context for programs and keys is set and the terminal, if it has one, has the label the policy gives it. After closing, the contexts and labels are those from before. A terminal is never given a label that does not exist. While SELinux is not enforcing, the module does not stop a login.", "quantifier": "all sequences of opening and closing with any arguments, and all failures of libselinux", "why_tests_cant": "sequences of calls are unbounded, and failures of libselinux are hard to provoke", "anchors": ["modules/pam_selinux/pam_selinux.c:pam_sm_open_session", "modules/pam_selinux/pam_selinux.c:pam_sm_close_session", "modules/pam_selinux/pam_selinux.c:create_context", "modules/pam_selinux/pam_selinux.c:compute_tty_context", "modules/pam_selinux/pam_selinux.c:set_context", "modules/pam_selinux/pam_selinux.c:restore_context"]}
{"id": "C161", "title": "The delay after a failure is what was asked for, up to a half more or less", "statement": "After a failure the library sleeps, or tells the application's delay function to wait, for at least a half and at most one and a half of the largest delay that was asked for, whatever random numbers it draws. The number handed to the delay function fits an unsigned int. Without a delay function it does not sleep after a success or when no delay was asked for, and a delay is used only once.", "quantifier": "all delays, random numbers, seeds and roundings of floating-point arithmetic", "why_tests_cant": "the random numbers and delays range over 2^32 values each, and the arithmetic is rounded", "anchors": ["libpam/pam_delay.c:_pam_compute_delay", "libpam/pam_delay.c:_pam_rand", "libpam/pam_delay.c:_pam_await_timer"]}
{"id": "C162", "title": "pam_filter starts the filter it is told to, when it is told to", "statement": "pam_filter starts a program exactly in the operations its run1 or run2 argument is for, and only one named by a full path; the program's environment is the path and its arguments, the service, the user and the name of the operation, and nothing else. Otherwise it starts no process and leaves the terminal and tokens alone. No arguments make it write beyond a buffer.", "quantifier": "all argument lists, operations, items, failures of memory and of system calls", "why_tests_cant": "argument lists are unbounded and failures cannot all be provoked", "anchors": ["modules/pam_filter/pam_filter.c:process_args", "modules/pam_filter/pam_filter.c:set_filter", "modules/pam_filter/pam_filter.c:need_a_filter", "modules/pam_filter/pam_filter.c:pam_sm_acct_mgmt"]}
{"id": "C163", "title": "The processes around a filtered application", "statement": "After pam_filter has started, the first process waits for the application and the filter in whatever order they end, and ends with the application's exit status. Only the application returns from the module with success, with its input and output led through the filter. The processes that are not the application have no authentication tokens. The user's terminal is put back into its mode, and no descriptor of the module stays open.", "quantifier": "all failures of system calls and all sequences of events that wait reports", "why_tests_cant": "the order of events is not under a test's control and unbounded", "anchors": ["modules/pam_filter/pam_filter.c:set_filter"]}
{"id": "C164", "title": "The upperLOWER filter hands on every byte", "statement": "The filter upperLOWER hands on what the user types to the application, and what the application writes to the user, in order and complete while it runs, with the case of letters swapped; at any time what was handed on is a beginning of what was read. Two such filters in a row change nothing.", "quantifier": "all sequences of reads of any size, in all directions, and all failures of writes", "why_tests_cant": "the bytes and their division into reads are unbounded", "anchors": ["modules/pam_filter/upperLOWER/upperLOWER.c:main", "modules/pam_filter/upperLOWER/upperLOWER.c:do_transpose"]}
{"id": "C165", "title": "A password change in a confined system does the same", "statement": "Where SELinux is in force pam_unix leaves the change of a password to the helper unix_update. For root, or the user with the right old password, the helper makes the same changes of the files, with the same result, that the module would make itself, under the lock. If the helper cannot be run, ends abnormally or is lost, the change is not reported as successful.", "quantifier": "all files, passwords of up to 512 bytes, options, numbers of remembered passwords, divisions of the pipe's bytes into reads and failures of system calls", "why_tests_cant": "needs SELinux, and ranges over all contents of the files and failures", "anchors": ["modules/pam_unix/pam_unix_passwd.c:_unix_run_update_binary", "modules/pam_unix/pam_unix_passwd.c:_do_setpass", "modules/pam_unix/unix_update.c:set_password"]}
{"id": "C166", "title": "pam_unix sessions succeed and are logged", "statement": "Opening and closing a session with pam_unix succeeds exactly when the user and the service are named, whatever the options. Each leaves exactly one line in the log unless silence is asked for, and the line of the opening determines the user, their id, the login name and the id of the caller.", "quantifier": "all items, options, flags, login.defs contents and accounts", "why_tests_cant": "names and options are unbounded", "anchors": ["modules/pam_unix/pam_unix_sess.c:pam_sm_open_session", "modules/pam_unix/pam_unix_sess.c:pam_sm_close_session"]}
{"id": "C167", "title": "A conversation leaves the application's signals alone", "statement": "After misc_conv returns, with or without time limits, however the conversation ended, the application's function for SIGALRM and the set of blocked signals are what they were before, no alarm of misc_conv is left running, and an alarm of the application still runs.", "quantifier": "all messages, inputs, clocks, time limits, alarms of the application and failures to set an alarm", "why_tests_cant": "the moments at which alarms go off and the clock are not under a test's control", "anchors": ["libpam_misc/misc_conv.c:set_alarm", "libpam_misc/misc_conv.c:reset_alarm", "libpam_misc/misc_conv.c:read_string", "libpam_misc/misc_conv.c:misc_conv"]}
{"id": "C168", "title": "When the init script of pam_namespace may trust a path", "statement": "The script that initialises an instance is told that a path is safe only if the path is absolute and every directory on the way to its last part, or the directory a link of root there refers to, is owned by root and writable by root only.", "quantifier": "all file systems and paths", "why_tests_cant": "the number of directories of a path is not bounded, and the answer depends on each of them", "anchors": ["modules/pam_namespace/pam_namespace.c:check_safe_path", "modules/pam_namespace/pam_namespace.c:strip_trailing_slashes"]}
{"id": "C169", "title": "The init script of pam_namespace", "statement": "After a directory has been set up, the script of its entry, or else of the administrator, or else of the vendor, is run with the documented arguments and without an environment, if it exists; the set-up succeeds only if the script did; the application's handling of SIGCHLD is restored.", "quantifier": "all entries, scripts, file systems, failures of calls and ways for the script to end", "why_tests_cant": "failures of system calls and every end of the script have to be covered", "anchors": ["modules/pam_namespace/pam_namespace.c:inst_init"]}
{"id": "C170", "title": "The set-up of a directory by pam_namespace", "statement": "If the set-up of a directory succeeds, the right instance, from a directory that root alone can enter, is mounted on it: an instance with the owner, group and mode of the directory, or a file system in memory with the options of the entry. A directory is made only if it is missing and the entry says so, with the owner, group and mode of the entry. If the set-up fails, nothing is left changed. No descriptor is left open.", "quantifier": "all entries, users, security contexts, states of the file system and failures of calls", "why_tests_cant": "each of the calls may fail, in each state of the file system", "anchors": ["modules/pam_namespace/pam_namespace.c:ns_setup", "modules/pam_namespace/pam_namespace.c:create_polydir", "modules/pam_namespace/pam_namespace.c:create_instance", "modules/pam_namespace/pam_namespace.c:check_inst_parent"]}
{"id": "C171", "title": "Temporary instances of pam_namespace are removed", "statement": "When a session ends or its set-up fails, the temporary instances that were made for it are removed, and nothing else; the application's handling of SIGCHLD is restored.", "quantifier": "all lists of entries, states of the file system and failures of calls", "why_tests_cant": "failures between the creation and the removal, for any number of entries", "anchors": ["modules/pam_namespace/pam_namespace.c:cleanup_tmpdirs", "modules/pam_namespace/pam_namespace.c:create_instance", "modules/pam_namespace/pam_namespace.c:ns_setup"]}
{"id": "C172", "title": "The stacks that pam_faillock(8) recommends lock accounts", "statement": "With either example configuration of pam_faillock(8), an attempt to log in succeeds exactly if the other modules have no objection, the password is right and the account is not locked; with the example faillock.conf, four wrong passwords within 15 minutes lock any account, including that of root, for 20 minutes, and nothing else counts as a failure.", "quantifier": "all histories of attempts, times, users, settings of faillock.conf, answers of the other modules and systems with that configuration file", "why_tests_cant": "the outcome depends on the whole history of attempts, and on the configuration reader, the dispatcher, the options and the tally together", "anchors": ["modules/pam_faillock/pam_faillock.8.xml", "modules/pam_faillock/pam_faillock.c:pam_sm_authenticate", "modules/pam_faillock/pam_faillock.c:pam_sm_acct_mgmt", "libpam/pam_dispatch.c:_pam_dispatch_aux", "libpam/pam_handlers.c:_pam_init_handlers"]}
{"id": "C173", "title": "The recommended configuration of other denies everything else", "statement": "With any of the configurations for `other` that the administrators' guide and the manual pages of pam_deny and pam_warn recommend, a service that has no line of its own for a type is refused by authentication, account management, opening a session and changing the password, and the configured refusals are logged with the function, service, terminal and users.", "quantifier": "all services, systems with that file for other, own files without a line of the type, items and other modules", "why_tests_cant": "the claim is about every service that has no configuration, whatever its name and whatever else is installed", "anchors": ["doc/sag/Linux-PAM_SAG.xml", "modules/pam_deny/pam_deny.c", "modules/pam_warn/pam_warn.c:log_items", "libpam/pam_handlers.c:_pam_init_handlers", "libpam/pam_dispatch.c:_pam_dispatch_aux"]}
{"id": "C174", "title": "The example configurations for su let in those they name", "statement": "With the example configuration of pam_rootok(8) root is let in without a password and everybody else needs one; with that of pam_wheel(8) root may become anybody and everybody else must be a member of the group and give the password; with that of pam_localuser(8) only local users and members of the group may use su.", "quantifier": "all account databases, invoking users, target users, answers of pam_unix and systems with that configuration", "why_tests_cant": "who is let in depends on the account database, the group database, the invoking user and the configuration reader together", "anchors": ["modules/pam_rootok/pam_rootok.8.xml", "modules/pam_wheel/pam_wheel.8.xml", "modules/pam_localuser/pam_localuser.8.xml", "modules/pam_wheel/pam_wheel.c:perform_check", "modules/pam_localuser/pam_localuser.c:pam_sm_authenticate", "libpam/pam_dispatch.c:_pam_dispatch_aux"]}
{"id": "C175", "title": "What the configuration file shipped with Linux-PAM allows", "statement": "With the shipped pam.conf as the only configuration: services it does not name are refused everything; ftp is for users who are not in /etc/ftpusers, have a shell of /etc/shells and give their password; login is for users who give their password, for root only at a safe terminal; su is for members of the group wheel, who give the password unless they are root; rsh and rexec want the password, a safe terminal and open logins; rlogin is never let in; nobody is asked for a password who would be refused by ftp or login anyway.", "quantifier": "all users, account databases, lists, terminals, answers of pam_unix and of the modules without a model, and all systems with this file", "why_tests_cant": "the outcome depends on the configuration reader, the dispatcher, seven modules and the files of the system together", "anchors": ["conf/pam.conf", "libpam/pam_handlers.c:_pam_init_handlers", "libpam/pam_dispatch.c:_pam_dispatch_aux", "modules/pam_listfile/pam_listfile.c:pam_sm_authenticate", "modules/pam_shells/pam_shells.c", "modules/pam_securetty/pam_securetty.c:securetty_perform_check", "modules/pam_nologin/pam_nologin.c:perform_check", "modules/pam_wheel/pam_wheel.c:perform_check"]}
{"id": "C176", "title": "Logging in with pam_unix, from pam_start to the answer of pam_authenticate", "statement": "For a service whose only auth line is `required pam_unix.so`, pam_authenticate on a new handle succeeds exactly if the account needs no password and may do without one, or the user types the password of the account. It asks for the name once if pam_start was not told, for the password once unless none is needed, and for nothing else; no name means failure without a question for the password; afterwards no password is left in the handle. Whatever goes wrong with the helper, it never succeeds without a password that matches a hash stored for that user.", "quantifier": "all configurations with that line, all arguments but use_first_pass and nullresetok, all flags, user databases, conversation functions and their answers, worlds", "why_tests_cant": "the outcome depends on the configuration reader, the dispatcher, pam_get_user, pam_get_authtok, pam_unix, its helper and the application together", "anchors": ["libpam/pam_start.c:_pam_start_internal", "libpam/pam_auth.c:pam_authenticate", "libpam/pam_item.c:pam_get_user", "libpam/pam_get_authtok.c:pam_get_authtok_internal", "modules/pam_unix/pam_unix_auth.c:pam_sm_authenticate", "modules/pam_unix/support.c:_unix_verify_password", "modules/pam_unix/unix_chkpwd.c:main"]}
{"id": "C177", "title": "pam_acct_mgmt with pam_unix, after pam_authenticate and without it", "statement": "For a service whose account line is `required pam_unix.so`, pam_acct_mgmt on the handle on which pam_authenticate succeeded returns PAM_SUCCESS exactly if the account may be used today, and PAM_ACCT_EXPIRED, PAM_AUTHTOK_EXPIRED, PAM_NEW_AUTHTOK_REQD exactly in the cases the shadow entry says so. The argument no_pass_expiry makes no difference for a user this module let in. On a new handle the answer is the same if no_pass_expiry is not given. Unless the call is silent the user is told that the account has expired, that the password must be changed, or in how many days it will expire, exactly in these cases; nothing else is said and nothing is asked.", "quantifier": "all configurations with these lines, all arguments but broken_shadow, flags, aging information and days, conversation functions, worlds", "why_tests_cant": "the second call depends on data the first call left in the handle, and on the aging information of every account and every day", "anchors": ["libpam/pam_account.c:pam_acct_mgmt", "modules/pam_unix/pam_unix_acct.c:pam_sm_acct_mgmt", "modules/pam_unix/pam_unix_auth.c:AUTH_RETURN", "libpam/pam_data.c:pam_get_data"]}
{"id": "C178", "title": "Trying passwords again and again on one handle", "statement": "However often pam_authenticate is called on a handle with `required pam_unix.so`: it answers PAM_MAXTRIES exactly if the password is wrong and at least the two calls before failed as well; a success starts the count anew; every call asks for the password exactly once; and the right password is accepted after any number of failures.", "quantifier": "all histories of calls on a handle, of any length, with any flags and any passwords", "why_tests_cant": "histories are unbounded", "anchors": ["libpam/pam_auth.c:pam_authenticate", "modules/pam_unix/support.c:_unix_verify_password", "libpam/pam_data.c:pam_set_data"]}
{"id": "C179", "title": "Changing a password with pam_unix, from pam_chauthtok to the files and the next login", "statement": "For a service whose only password line is `required pam_unix.so`, pam_chauthtok on a new handle always comes to an end. If it does not succeed, the hash of the account is what it was. If it succeeds, the application was asked for a new password and again for the same, hidden, and gave the same answer twice; the account has a hash of that password and no other; and the change was asked for by root, or the account had no password, or the current password was typed, is right and is another one; unless the caller is root the shadow entry allows a change today, and with PAM_CHANGE_EXPIRED_AUTHTOK demands one. In every case no token is left in the handle, nothing on the machine but the account files changes, no other account changes, of this one only the password, the lock is released and owner and mode of the files are kept. Whoever types the new password afterwards is let in by pam_authenticate, and nobody with a password the new hash does not accept.", "quantifier": "all configurations with that line, all arguments and flags, contents of the files, users, processes, conversation functions and their answers, failures of the helper and of writing the files", "why_tests_cant": "two passes, the data kept in the handle between them, the questions of pam_get_authtok, the aging rules, the lock, three files and the later login together decide what happened to the password", "anchors": ["libpam/pam_password.c:pam_chauthtok", "libpam/pam_get_authtok.c:pam_get_authtok_internal", "libpam/pam_get_authtok.c:pam_get_authtok_verify", "modules/pam_unix/pam_unix_passwd.c:pam_sm_chauthtok", "modules/pam_unix/pam_unix_passwd.c:_do_setpass", "modules/pam_unix/support.c:_unix_verify_password", "modules/pam_unix/passverify.c:create_password_hash"]}
{"id": "C180", "title": "pam_setcred with pam_unix after pam_authenticate", "statement": "For a service whose only authentication line is `required pam_unix.so`: after a pam_authenticate that succeeded every pam_setcred succeeds; after one that failed no pam_setcred succeeds: each answers PAM_PERM_DENIED, except that with the argument likeauth the first one repeats the answer of pam_authenticate. pam_setcred asks the application nothing and changes nothing outside the handle. On a handle on which pam_authenticate was not called it succeeds.", "quantifier": "all configurations with that line, all arguments, flags, users, contents of the files, conversation functions and their answers, any number of calls of pam_setcred", "why_tests_cant": "the code a module kept in the handle, the code the library kept for the line and the module's new answer decide together, over any number of calls", "anchors": ["libpam/pam_auth.c:pam_setcred", "libpam/pam_dispatch.c:_pam_dispatch_aux", "modules/pam_unix/pam_unix_auth.c:pam_sm_setcred", "modules/pam_unix/pam_unix_auth.c:setcred_free"]}
{"id": "C181", "title": "No credentials after a failed authentication, no end of a session that was not opened", "statement": "pam_setcred does not succeed on a handle on which the last pam_authenticate failed, and pam_close_session does not succeed where the last pam_open_session failed, whatever the modules answer the second time and whatever else the application did in between.", "quantifier": "all stacks of lines, all modules and their answers, all flags, all histories of calls before and between", "why_tests_cant": "the library replays the codes of the first call over the second; the claim ranges over every stack, every answer and every history", "anchors": ["libpam/pam_dispatch.c:_pam_dispatch_aux", "libpam/pam_dispatch.c:_pam_dispatch", "libpam/pam_auth.c:pam_setcred", "libpam/pam_session.c:pam_close_session"]}
{"id": "C182", "title": "A required module cannot be got round by the other modules", "statement": "Where a service's configuration has a line `required` or `requisite` and no `sufficient` line before it, pam_authenticate, pam_acct_mgmt and pam_open_session grant only if that line's module, called after the modules before it, succeeds (or declines with PAM_IGNORE), whatever the other modules do and whatever calls the application made before. With pam_unix on that line: pam_authenticate grants only if the password it was given, by the user or by a module before it, is not empty and matches a hash read from the user database for the user it was told; pam_acct_mgmt returns PAM_SUCCESS only if PAM_USER names an account in order.", "quantifier": "all stacks of lines with classic control words, all other modules (any programs over the library's interface) and their answers, all conversation functions, flags, users, contents of the files, all histories of earlier calls that came to an end, other than of pam_chauthtok, with PAM_SERVICE unchanged", "why_tests_cant": "ranges over every other module, every position in the stack and every earlier call on the handle", "anchors": ["libpam/pam_dispatch.c:_pam_dispatch_aux", "libpam/pam_handlers.c:_pam_parse_conf_file", "modules/pam_unix/pam_unix_auth.c:pam_sm_authenticate", "modules/pam_unix/pam_unix_acct.c:pam_sm_acct_mgmt"]}
{"id": "C183", "title": "A program run by a module has exactly the standard descriptors it is meant to have", "statement": "Whatever descriptors the application has open or closed (stdin, stdout and stderr among them), when a helper of pam_unix, pam_pwhistory or pam_mkhomedir, the xauth program of pam_xauth or the command of pam_exec starts, its stdin, stdout and stderr are those the module means to give it: the read end of the pipe the password or the xauth input comes through, the write end of the pipe the module reads, the log file, or a harmless replacement; and it has no other descriptor, none of the application's and no other end of the module's own pipes (as far as descriptors can be closed one by one, where close_range does not work).", "quantifier": "all tables of open descriptors of the application, all outcomes of every system call in both processes, all options of the modules, close_range working or not, all limits on descriptors", "why_tests_cant": "a mix-up needs an application that has closed some of its standard descriptors, so that the ends of the pipes get low numbers; every set of open descriptors and every failing call must be covered", "anchors": ["modules/pam_unix/support.c:_unix_run_helper_binary", "modules/pam_unix/pam_unix_passwd.c:_unix_run_update_binary", "modules/pam_unix/pam_unix_acct.c:_unix_run_verify_binary", "modules/pam_pwhistory/pam_pwhistory.c:run_save_helper,run_check_helper", "modules/pam_mkhomedir/pam_mkhomedir.c:create_homedir", "modules/pam_xauth/pam_xauth.c:run_coprocess", "modules/pam_exec/pam_exec.c:call_exec,move_fd_to_non_stdio", "libpam/pam_modutil_sanitize.c:pam_modutil_sanitize_helper_fds"]}
{"id": "C184", "title": "Running a program leaves nothing behind in the application", "statement": "When a module has run a program, or has failed to, the application has the descriptors it had before, each referring to the same file, and its own action for SIGCHLD.", "quantifier": "all tables of open descriptors of the application, all outcomes of every system call, all options of the modules", "why_tests_cant": "every failing system call at every point must be covered, for every set of open descriptors", "anchors": ["modules/pam_unix/support.c:_unix_run_helper_binary", "modules/pam_unix/pam_unix_passwd.c:_unix_run_update_binary", "modules/pam_unix/pam_unix_acct.c:_unix_run_verify_binary", "modules/pam_pwhistory/pam_pwhistory.c:run_save_helper,run_check_helper", "modules/pam_mkhomedir/pam_mkhomedir.c:create_homedir", "modules/pam_xauth/pam_xauth.c:run_coprocess", "modules/pam_exec/pam_exec.c:call_exec,move_fd_to_non_stdio"]}
{"id": "C185", "title": "A change of password needs the current one, whatever modules stand beside pam_unix", "statement": "Where a service's configuration for passwords has a line `required` or `requisite` and no `sufficient` line before it, pam_chauthtok returns PAM_SUCCESS only if that line's module, called in the first pass after the modules before it, succeeds or declines with PAM_IGNORE, whatever the other modules do and whatever the application did before. With pam_unix on that line, pam_chauthtok returns PAM_SUCCESS only if the user it was told exists, and the caller is root (and did not ask for expired passwords only), or the account has an empty password, or pam_unix was given the current password.", "quantifier": "all stacks of lines with classic control words, all other modules (any programs over the library's interface) and their answers, all conversation functions, flags, users, contents of the files, all histories of earlier calls", "why_tests_cant": "ranges over every other module, every position in the stack and every earlier call on the handle", "anchors": ["libpam/pam_password.c:pam_chauthtok", "libpam/pam_dispatch.c:_pam_dispatch_aux", "modules/pam_unix/pam_unix_passwd.c:pam_sm_chauthtok"]}
{"id": "C186", "title": "pam_sepermit finds and kills the processes of the user, and no others", "statement": "Whatever processes run, however they are called and whatever else /proc holds, an exclusive login is granted only if no process with the user's real user id runs besides the one that asks (or /proc cannot be read). At the end of the login, whatever processes come and go meanwhile, SIGKILL is sent to all processes with the user's real user id that a look at /proc finds, never to a process of another user, to the process itself or to a process group, and the lock is given up only after a look that found none.", "quantifier": "all tables of processes and contents of /proc, all names of programs, all user ids, all changes between one look and the next", "why_tests_cant": "a signal to a wrong process, or a process that is overlooked, depends on names and ids in /proc that a test cannot enumerate, and on what happens between two looks", "anchors": ["modules/pam_sepermit/pam_sepermit.c:match_process_uid", "modules/pam_sepermit/pam_sepermit.c:check_running", "modules/pam_sepermit/pam_sepermit.c:sepermit_unlock"]}
{"id": "C187", "title": "pam_env's expansion stays within its memory", "statement": "Whatever a value in pam_env.conf holds and whatever the variables and items are, the expansion of the value reads and writes only memory that was allocated, however often memory runs out; and the result it leaves in the place of the value is the expanded text. With memory at hand it does not fail for lack of it, unless a text would be longer than the largest size.", "quantifier": "all values, environments and items, all answers of the memory manager, all histories of additions to the buffer", "why_tests_cant": "an overrun depends on the exact lengths of a value and of what it expands to, and on when realloc fails; the value is cut at each closing brace while its memory stays as long as it was", "anchors": ["modules/pam_env/pam_env.c:_strbuf_reserve", "modules/pam_env/pam_env.c:_strbuf_add_char", "modules/pam_env/pam_env.c:_strbuf_add_string", "modules/pam_env/pam_env.c:_expand_arg"]}
{"id": "C188", "title": "pam_tty_audit and the kernel's messages", "statement": "Whatever datagrams come from the kernel, pam_tty_audit writes only into its own buffers, and takes the status from a message of the right type only; it reports success of a change only if the kernel acknowledged it without an error. With a kernel that keeps to the protocol, including older ones that send a shorter status, extra acknowledgements, errors and lost messages, opening and closing a session end with the code and the status that follow from what the kernel did.", "quantifier": "all sequences of datagrams and failures, all contents of memory, all statuses, all arguments", "why_tests_cant": "tests run with one kernel; short, cut, unexpected and missing messages, and what was in memory before, cannot be enumerated", "anchors": ["modules/pam_tty_audit/pam_tty_audit.c:nl_send", "modules/pam_tty_audit/pam_tty_audit.c:nl_recv", "modules/pam_tty_audit/pam_tty_audit.c:nl_recv_ack"]}
{"id": "C189", "title": "pam_namespace leaves no descriptor open and no mount behind", "statement": "Whatever system calls and allocations fail, opening a directory the secure way leaves open only the descriptor it returns and closes none it did not open; unmounting, removing a directory and undoing the protection leave none open. Each directory it mounts over itself for protection is on the way to the path, is mounted once, and is in the list of protected ones; without the wish to protect there is no mount. If the path was opened, every directory below the first one that users may change is protected. Undoing the protection, with calls that work, leaves the mounts as they were, after any number of paths, opened with or without success.", "quantifier": "all paths, all failures of calls and allocations, all directories, all lists of protected directories, all sequences of paths", "why_tests_cant": "the points at which calls fail, and the combinations of paths that share directories, cannot be enumerated", "anchors": ["modules/pam_namespace/pam_namespace.c:secure_opendir", "modules/pam_namespace/pam_namespace.c:protect_mount", "modules/pam_namespace/pam_namespace.c:secure_umount", "modules/pam_namespace/pam_namespace.c:unprotect_dirs", "modules/pam_namespace/pam_namespace.c:secure_try_rmdir"]}
{"id": "C190", "title": "For whom pam_namespace opens a session", "statement": "Whatever is on the stack, opening a session of pam_namespace touches no memory but its own while it finds out for whom it is, and uses the numbers and names of two accounts: that of PAM_USER, and that which asks, which is the one named by PAM_RUSER or else that of the process. Without PAM_USER, or if one of the accounts does not exist, the session fails.", "quantifier": "all names, accounts and contents of memory", "why_tests_cant": "what is in memory that was never written cannot be chosen by a test", "anchors": ["modules/pam_namespace/pam_namespace.c:get_user_data", "modules/pam_namespace/pam_namespace.c:pam_sm_open_session"]}
{"id": "C191", "title": "pam_namespace and a shared root", "statement": "If the root of the process is a shared mount, or with mount_private, pam_namespace mounts and unmounts nothing before it is in a namespace of its own from which mounts do not spread; whether the root is shared is taken from the last mount at / in the list of mounts, whatever else is mounted and how.", "quantifier": "all lists of mounts, all arguments, all failures", "why_tests_cant": "a list of mounts has no bound, and each mount has any number of optional fields", "anchors": ["modules/pam_namespace/pam_namespace.c:root_shared", "modules/pam_namespace/pam_namespace.c:setup_namespace"]}
{"id": "C192", "title": "pam_namespace leaves a directory before unmounting it", "statement": "Before a directory is unmounted, a process whose current directory is that directory or in it goes to the directory above; a process that is elsewhere stays where it is; if the current directory is unknown, the session fails.", "quantifier": "all directories and current directories", "why_tests_cant": "paths have no bound", "anchors": ["modules/pam_namespace/pam_namespace.c:cwd_in", "modules/pam_namespace/pam_namespace.c:setup_namespace"]}
{"id": "C193", "title": "pam_namespace frees its lists once", "statement": "After any calls that open and close sessions on a handle, whatever fails in them, each list of directories and of protected directories that was made has been freed once or belongs to the handle, and not both; at the end of the transaction all have been freed, none twice. A session that fails leaves none behind.", "quantifier": "all sequences of calls, all failures of system calls, the configuration and memory", "why_tests_cant": "sequences of sessions that fail at different places, and at which of the allocations, cannot be enumerated", "anchors": ["modules/pam_namespace/pam_namespace.c:setup_namespace", "modules/pam_namespace/pam_namespace.c:pam_sm_open_session", "modules/pam_namespace/pam_namespace.c:pam_sm_close_session", "libpam/pam_data.c:pam_set_data", "libpam/pam_data.c:_pam_free_data"]}
{"id": "C194", "title": "What is logged, by whom, and the texts of errors", "statement": "pam_syslog logs exactly one line: the caller's text as its format means it, with the error number of the moment of the call, after `module(service:operation):`, or after `PAM` outside a module. Nothing in the arguments or in those names is taken for a format. The line tells module, service and operation. All memory is freed. pam_strerror answers every number, and its texts tell the 32 codes of the interface apart.", "quantifier": "all formats, arguments, module and service names, operations, failures of memory, all numbers", "why_tests_cant": "texts that come from users are unbounded, and the failures of memory are hard to cause", "anchors": ["libpam/pam_syslog.c:pam_vsyslog", "libpam/pam_syslog.c:pam_syslog", "libpam/pam_syslog.c:_pam_choice2str", "libpam/pam_strerror.c:pam_strerror"]}
{"id": "C195", "title": "Cleanup functions that use the module data themselves", "statement": "A cleanup function may set and get module data of the same transaction. The calls return; a name has the datum of the last successful call; every datum that had a cleanup function, those set by cleanup functions included, is given to it exactly once; no released entry is read, and each is released once. At pam_end the calls of cleanup functions change nothing.", "quantifier": "all sequences of calls, all cleanup functions with any calls of their own, nested to any depth", "why_tests_cant": "what cleanup functions do, and how they nest, is unbounded", "anchors": ["libpam/pam_data.c:pam_set_data", "libpam/pam_data.c:pam_get_data", "libpam/pam_data.c:_pam_free_data", "libpam/pam_end.c:pam_end"]}
{"id": "C196", "title": "Which process of pam_filter has which descriptors", "statement": "When pam_filter returns success, descriptors 0, 1 and 2 of the application lead to the filter and all others are what they were. The filter's program starts with the application at 3, 4 and 5 and the user at 0, 1 and 2, and with nothing else. No process holds the end of another. Where the module fails, and in the process that waits, the application's descriptors are as before.", "quantifier": "all tables of descriptors (closed ones included), all failures of system calls in the three processes", "why_tests_cant": "which descriptors are free and which system call fails varies without bound", "anchors": ["modules/pam_filter/pam_filter.c:set_filter", "modules/pam_filter/pam_filter.c:master"]}
{"id": "C197", "title": "A lookup of pam_userdb leaves nothing behind and fails closed without memory", "statement": "However a lookup in the database of pam_userdb goes, and wherever memory runs out, the database is closed again and not used afterwards, and every copy of a key, a hash or a password is wiped and freed, once. If there is memory, the answer is the one of C108. If there is none, no password is accepted that does not fit, and the failure is reported as a system error.", "quantifier": "all databases, options, users, passwords, crypt functions, and all choices of which requests for memory fail", "why_tests_cant": "the request for memory that fails may be any one, in a search of any length", "anchors": ["modules/pam_userdb/pam_userdb.c:user_lookup"]}
{"id": "C198", "title": "The memory of the variables that pam_env reads", "statement": "While pam_env reads its configuration, whatever the lines say and wherever memory runs out, only memory that the module got is freed, each piece once, and none is read after that; at the end nothing is left. With memory the result is the one of C89; lack of memory never passes for success.", "quantifier": "all lines, environments, items, all choices of which requests for memory fail and of which expanded values move", "why_tests_cant": "the request that fails may be any one, in a file of any length with settings repeated any number of times", "anchors": ["modules/pam_env/pam_env.c:_parse_line", "modules/pam_env/pam_env.c:_check_var", "modules/pam_env/pam_env.c:_clean_var", "modules/pam_env/pam_env.c:_define_var", "modules/pam_env/pam_env.c:_expand_arg", "modules/pam_env/pam_env.c:_parse_config_file"]}
{"id": "C199", "title": "pam_unix: what the log says about failures", "statement": "In any sequence of attempts with one handle, a failure is written to the log at once exactly if it is the first of its user or the first after a success. When the handle is ended, the log gets, for each user with two or more failures in a row, one line with the number of those after the first, about the last attempt; with PAM_DATA_SILENT it gets none. Every failure is reported.", "quantifier": "all sequences of attempts for all users, all results of the checks", "why_tests_cant": "the sequences have no bound, and users may be mixed in any order", "anchors": ["modules/pam_unix/support.c:_unix_verify_password", "modules/pam_unix/support.c:_cleanup_failures", "libpam/pam_data.c:pam_set_data", "libpam/pam_data.c:_pam_free_data"]}
{"id": "C200", "title": "pam_stress: what each call answers and which password is kept", "statement": "The options may be given in any order and number. Account checks, sessions and credentials fail exactly as fail_1, fail_2 and expired say. With use_first_pass or try_first_pass and a password that is there, authentication asks nothing; with use_first_pass and none it is denied; otherwise the user is asked once, and the answer is the password from then on. A change that fails leaves the password as it was; with required the old password is asked for first, unless it is root and rootok is given; a change that succeeds makes the new password, typed twice, the password, and keeps the old one.", "quantifier": "all lists of arguments, all handles, all flags, all conversation functions", "why_tests_cant": "the lists of arguments and the answers of the application have no bound", "anchors": ["modules/pam_stress/pam_stress.c:_pam_parse", "modules/pam_stress/pam_stress.c:stress_get_password", "modules/pam_stress/pam_stress.c:pam_sm_authenticate", "modules/pam_stress/pam_stress.c:pam_sm_acct_mgmt", "modules/pam_stress/pam_stress.c:pam_sm_open_session", "modules/pam_stress/pam_stress.c:pam_sm_chauthtok"]}
