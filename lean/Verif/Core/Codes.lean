/-
Numeric constants of the PAM interface.
-/
namespace Pam

/-! Return codes: libpam/include/security/_pam_types.h:29-91 (all 32 codes, `_PAM_RETURN_VALUES` = 32). -/

/-- `PAM_SUCCESS`: libpam/include/security/_pam_types.h:29 -/
abbrev PAM_SUCCESS : Int := 0
/-- `PAM_OPEN_ERR`: libpam/include/security/_pam_types.h:30 -/
abbrev PAM_OPEN_ERR : Int := 1
/-- `PAM_SYMBOL_ERR`: libpam/include/security/_pam_types.h:32 -/
abbrev PAM_SYMBOL_ERR : Int := 2
/-- `PAM_SERVICE_ERR`: libpam/include/security/_pam_types.h:33 -/
abbrev PAM_SERVICE_ERR : Int := 3
/-- `PAM_SYSTEM_ERR`: libpam/include/security/_pam_types.h:34 -/
abbrev PAM_SYSTEM_ERR : Int := 4
/-- `PAM_BUF_ERR`: libpam/include/security/_pam_types.h:35 -/
abbrev PAM_BUF_ERR : Int := 5
/-- `PAM_PERM_DENIED`: libpam/include/security/_pam_types.h:36 -/
abbrev PAM_PERM_DENIED : Int := 6
/-- `PAM_AUTH_ERR`: libpam/include/security/_pam_types.h:37 -/
abbrev PAM_AUTH_ERR : Int := 7
/-- `PAM_CRED_INSUFFICIENT`: libpam/include/security/_pam_types.h:38 -/
abbrev PAM_CRED_INSUFFICIENT : Int := 8
/-- `PAM_AUTHINFO_UNAVAIL`: libpam/include/security/_pam_types.h:40 -/
abbrev PAM_AUTHINFO_UNAVAIL : Int := 9
/-- `PAM_USER_UNKNOWN`: libpam/include/security/_pam_types.h:43 -/
abbrev PAM_USER_UNKNOWN : Int := 10
/-- `PAM_MAXTRIES`: libpam/include/security/_pam_types.h:45 -/
abbrev PAM_MAXTRIES : Int := 11
/-- `PAM_NEW_AUTHTOK_REQD`: libpam/include/security/_pam_types.h:49 -/
abbrev PAM_NEW_AUTHTOK_REQD : Int := 12
/-- `PAM_ACCT_EXPIRED`: libpam/include/security/_pam_types.h:55 -/
abbrev PAM_ACCT_EXPIRED : Int := 13
/-- `PAM_SESSION_ERR`: libpam/include/security/_pam_types.h:56 -/
abbrev PAM_SESSION_ERR : Int := 14
/-- `PAM_CRED_UNAVAIL`: libpam/include/security/_pam_types.h:58 -/
abbrev PAM_CRED_UNAVAIL : Int := 15
/-- `PAM_CRED_EXPIRED`: libpam/include/security/_pam_types.h:61 -/
abbrev PAM_CRED_EXPIRED : Int := 16
/-- `PAM_CRED_ERR`: libpam/include/security/_pam_types.h:62 -/
abbrev PAM_CRED_ERR : Int := 17
/-- `PAM_NO_MODULE_DATA`: libpam/include/security/_pam_types.h:63 -/
abbrev PAM_NO_MODULE_DATA : Int := 18
/-- `PAM_CONV_ERR`: libpam/include/security/_pam_types.h:64 -/
abbrev PAM_CONV_ERR : Int := 19
/-- `PAM_AUTHTOK_ERR`: libpam/include/security/_pam_types.h:65 -/
abbrev PAM_AUTHTOK_ERR : Int := 20
/-- `PAM_AUTHTOK_RECOVERY_ERR`: libpam/include/security/_pam_types.h:66 -/
abbrev PAM_AUTHTOK_RECOVERY_ERR : Int := 21
/-- `PAM_AUTHTOK_LOCK_BUSY`: libpam/include/security/_pam_types.h:68 -/
abbrev PAM_AUTHTOK_LOCK_BUSY : Int := 22
/-- `PAM_AUTHTOK_DISABLE_AGING`: libpam/include/security/_pam_types.h:69 -/
abbrev PAM_AUTHTOK_DISABLE_AGING : Int := 23
/-- `PAM_TRY_AGAIN`: libpam/include/security/_pam_types.h:70 -/
abbrev PAM_TRY_AGAIN : Int := 24
/-- `PAM_IGNORE`: libpam/include/security/_pam_types.h:71 -/
abbrev PAM_IGNORE : Int := 25
/-- `PAM_ABORT`: libpam/include/security/_pam_types.h:74 -/
abbrev PAM_ABORT : Int := 26
/-- `PAM_AUTHTOK_EXPIRED`: libpam/include/security/_pam_types.h:75 -/
abbrev PAM_AUTHTOK_EXPIRED : Int := 27
/-- `PAM_MODULE_UNKNOWN`: libpam/include/security/_pam_types.h:76 -/
abbrev PAM_MODULE_UNKNOWN : Int := 28
/-- `PAM_BAD_ITEM`: libpam/include/security/_pam_types.h:78 -/
abbrev PAM_BAD_ITEM : Int := 29
/-- `PAM_CONV_AGAIN`: libpam/include/security/_pam_types.h:79 -/
abbrev PAM_CONV_AGAIN : Int := 30
/-- `PAM_INCOMPLETE`: libpam/include/security/_pam_types.h:81 -/
abbrev PAM_INCOMPLETE : Int := 31
/-- `_PAM_RETURN_VALUES`: libpam/include/security/_pam_types.h:91 -/
abbrev PAM_RETURN_VALUES : Nat := 32

/-! Control actions: libpam/pam_private.h:194-204. -/

/-- `_PAM_ACTION_IGNORE`: libpam/pam_private.h:195 -/
abbrev ACT_IGNORE : Int := 0
/-- `_PAM_ACTION_OK`: libpam/pam_private.h:196 -/
abbrev ACT_OK : Int := -1
/-- `_PAM_ACTION_DONE`: libpam/pam_private.h:197 -/
abbrev ACT_DONE : Int := -2
/-- `_PAM_ACTION_BAD`: libpam/pam_private.h:198 -/
abbrev ACT_BAD : Int := -3
/-- `_PAM_ACTION_DIE`: libpam/pam_private.h:199 -/
abbrev ACT_DIE : Int := -4
/-- `_PAM_ACTION_RESET`: libpam/pam_private.h:200 -/
abbrev ACT_RESET : Int := -5
/-- `_PAM_ACTION_UNDEF`: libpam/pam_private.h:203 -/
abbrev ACT_UNDEF : Int := -6

/-- `_PAM_INVALID_RETVAL`, libpam/pam_private.h:51 -/
abbrev INVALID_RETVAL : Int := -1

/-- `PAM_SUBSTACK_MAX_LEVEL`, libpam/pam_private.h:206 -/
abbrev SUBSTACK_MAX_LEVEL : Nat := 16

end Pam
