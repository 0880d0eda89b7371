import Verif.Stack.Shipped
/-
The words of the shipped configuration, line by line.
-/
namespace Pam.Stack
open Pam Pam.Config

/-- the lines of conf/pam.conf that are not comments -/
def shippedRows : List (List String) := [
  ["chfn", "auth", "required", "pam_unix.so"],
  ["chfn", "account", "required", "pam_unix.so"],
  ["chfn", "password", "required", "pam_unix.so", "shadow", "md5", "use_authtok"],
  ["chsh", "auth", "required", "pam_unix.so"],
  ["chsh", "account", "required", "pam_unix.so"],
  ["chsh", "password", "required", "pam_unix.so", "shadow", "md5", "use_authtok"],
  ["ftp", "auth", "requisite", "pam_listfile.so", "item=user", "sense=deny", "file=/etc/ftpusers", "onerr=succeed"],
  ["ftp", "auth", "requisite", "pam_shells.so"],
  ["ftp", "auth", "required", "pam_unix.so"],
  ["ftp", "account", "required", "pam_unix.so"],
  ["imap", "auth", "required", "pam_unix.so"],
  ["imap", "account", "required", "pam_unix.so"],
  ["login", "auth", "requisite", "pam_securetty.so"],
  ["login", "auth", "required", "pam_unix.so"],
  ["login", "auth", "optional", "pam_group.so"],
  ["login", "account", "requisite", "pam_time.so"],
  ["login", "account", "required", "pam_unix.so"],
  ["login", "password", "required", "pam_unix.so", "shadow", "md5", "use_authtok"],
  ["login", "session", "required", "pam_unix.so"],
  ["netatalk", "auth", "required", "pam_unix.so"],
  ["netatalk", "account", "required", "pam_unix.so"],
  ["other", "auth", "required", "pam_deny.so"],
  ["other", "auth", "required", "pam_warn.so"],
  ["other", "account", "required", "pam_deny.so"],
  ["other", "password", "required", "pam_deny.so"],
  ["other", "password", "required", "pam_warn.so"],
  ["other", "session", "required", "pam_deny.so"],
  ["passwd", "password", "required", "pam_unix.so", "shadow", "md5", "use_authtok"],
  ["rexec", "auth", "requisite", "pam_securetty.so"],
  ["rexec", "auth", "requisite", "pam_nologin.so"],
  ["rexec", "auth", "sufficient", "pam_rhosts_auth.so"],
  ["rexec", "auth", "required", "pam_unix.so"],
  ["rexec", "account", "required", "pam_unix.so"],
  ["rexec", "session", "required", "pam_unix.so"],
  ["rexec", "session", "required", "pam_limits.so"],
  ["rlogin", "auth", "requisite", "pam_securetty.so"],
  ["rlogin", "auth", "requisite", "pam_nologin.so"],
  ["rlogin", "auth", "required", "pam_rhosts_auth.so"],
  ["rlogin", "account", "required", "pam_unix.so"],
  ["rlogin", "password", "required", "pam_unix.so", "shadow", "md5", "use_authtok"],
  ["rlogin", "session", "required", "pam_unix.so"],
  ["rlogin", "session", "required", "pam_limits.so"],
  ["rsh", "auth", "requisite", "pam_securetty.so"],
  ["rsh", "auth", "requisite", "pam_nologin.so"],
  ["rsh", "auth", "sufficient", "pam_rhosts_auth.so"],
  ["rsh", "auth", "required", "pam_unix.so"],
  ["rsh", "account", "required", "pam_unix.so"],
  ["rsh", "session", "required", "pam_unix.so"],
  ["rsh", "session", "required", "pam_limits.so"],
  ["samba", "auth", "required", "pam_unix.so"],
  ["samba", "account", "required", "pam_unix.so"],
  ["su", "auth", "required", "pam_wheel.so"],
  ["su", "auth", "sufficient", "pam_rootok.so"],
  ["su", "auth", "required", "pam_unix.so"],
  ["su", "account", "required", "pam_unix.so"],
  ["su", "session", "required", "pam_unix.so"],
  ["vlock", "auth", "required", "pam_unix.so"],
  ["xdm", "auth", "required", "pam_unix.so"],
  ["xdm", "account", "required", "pam_unix.so"],
  ["xlock", "auth", "required", "pam_unix.so"]]

theorem shipped_rows : (fileLines ' ' shipped).1.map mkargv = shippedRows.map (fun r => r.map String.toList) := by decide +kernel

end Pam.Stack
