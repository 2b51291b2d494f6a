import Verif.Device.Junos
import Verif.Device.Switches
import Verif.Ssh.Lines
/-
The texts of the commands that the backends send to their devices, and the whole text of a session.
-/
namespace OpenNSA.Device
open Py

/-- The line of a command: the words of the templates with a space between them (juniperex.py:37-41, junosmx.py:24-49, junosex.py:27-44,
junipervpls.py:94-108). -/
def Cmd.text : Cmd → Str
  | .set p => joinWith ' ' ("set".toList :: p)
  | .delete p => joinWith ' ' ("delete".toList :: p)

/-- The line of a command, templates of brocade.py:35-39. -/
def BCmd.text : BCmd → Str
  | .vlan v n => "vlan ".toList ++ showInt v ++ " name ".toList ++ n
  | .tagged p => "tagged ethernet ".toList ++ p
  | .noVlan v => "no vlan ".toList ++ showInt v

/-- The line of a command, templates of pica8ovs.py:21-26. `db` is the address of the database. (`'\\\\>'` in the source is a backslash and `>`.) -/
def PCmd.text (db : Str) : PCmd → Str
  | .addTrunk p v => "/ovs/bin/ovs-vsctl --db=tcp:".toList ++ (db ++ (":6640 add port ".toList ++ (p ++ (" trunk ".toList ++ showInt v))))
  | .removeTrunk p v => "/ovs/bin/ovs-vsctl --db=tcp:".toList ++ (db ++ (":6640 remove port ".toList ++ (p ++ (" trunk ".toList ++ showInt v))))
  | .addFlow i v ⟨o, none⟩ =>
    "/ovs/bin/ovs-ofctl add-flow br0 in_port=".toList ++ (showInt i ++ (",dl_vlan=".toList ++ (showInt v ++ (",actions=output:".toList ++ showInt o))))
  | .addFlow i v ⟨o, some w⟩ =>
    "/ovs/bin/ovs-ofctl add-flow br0 in_port=".toList ++ (showInt i ++ (",dl_vlan=".toList ++ (showInt v ++ (",action=set_field=".toList
      ++ (showInt w ++ ("-\\>vlan_vid,output:".toList ++ showInt o))))))
  | .delFlow i v => "/ovs/bin/ovs-ofctl del-flows br0 in_port=".toList ++ (showInt i ++ (",dl_vlan=".toList ++ showInt v))

/-- All that is written in a session that comes to its end. -/
def wholeText (s : Ssh.Script) : Str := (s.steps.flatMap (·.writes) ++ s.last).flatten

end OpenNSA.Device
