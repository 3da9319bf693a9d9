import Verif.Model.Client
/-!
# Model of the asynchronous variants of the Python client, `python/comfo/client.py`

`run_in_executor` calls the function it is given in a thread and the coroutine waits for it, so that
an asynchronous variant returns or raises what the function does. That other coroutines run
meanwhile makes no difference to it: the methods assign to nothing but local variables.
-/
namespace Comfo

/-- `await self.loop.run_in_executor(None, f)`. -/
def PyComfo.inExecutor (self : PyComfo) (f : Py α) : Py α :=
  match pyAsync self with
  | .ok _ => f
  | .error e => .raise e

/-- `python/comfo/client.py:38-40` `async_ping`. -/
def pyAsyncPing (self : PyComfo) : Py Bool := self.inExecutor pyPing

/-- `python/comfo/client.py:55-57` `async_get_bootinfo`. -/
def pyAsyncGetBootinfo (self : PyComfo) : Py PyBootInfo := self.inExecutor pyGetBootinfo

/-- `python/comfo/client.py:68-70` `async_get_bypass`. -/
def pyAsyncGetBypass (self : PyComfo) : Py PyBypass := self.inExecutor pyGetBypass

/-- `python/comfo/client.py:81-83` `async_get_temps`. -/
def pyAsyncGetTemps (self : PyComfo) : Py PyTemps := self.inExecutor pyGetTemps

/-- `python/comfo/client.py:94-96` `async_get_fans`. -/
def pyAsyncGetFans (self : PyComfo) : Py PyFans := self.inExecutor pyGetFans

/-- `python/comfo/client.py:107-109` `async_get_fan_profiles`. -/
def pyAsyncGetFanProfiles (self : PyComfo) : Py PyFanProfiles := self.inExecutor pyGetFanProfiles

/-- `python/comfo/client.py:120-122` `async_get_errors`. -/
def pyAsyncGetErrors (self : PyComfo) : Py PyErrors := self.inExecutor pyGetErrors

/-- `python/comfo/client.py:143-148` `async_set_fan_speed`. -/
def pyAsyncSetFanSpeed (self : PyComfo) (speed : Int) : Py Bool :=
  self.inExecutor (pySetFanSpeed speed)

/-- `python/comfo/client.py:167-169` `async_increase_fan_speed`. -/
def pyAsyncIncreaseFanSpeed (self : PyComfo) : Py Bool := self.inExecutor pyIncreaseFanSpeed

/-- `python/comfo/client.py:190-192` `async_decrease_fan_speed`. -/
def pyAsyncDecreaseFanSpeed (self : PyComfo) : Py Bool := self.inExecutor pyDecreaseFanSpeed

/-- `python/comfo/client.py:210-218` `async_set_comfort_temperature`; `None` may be given for
`temperature`, though it is not the default. -/
def pyAsyncSetComfortTemperature (self : PyComfo) (temperature : Option Int) : Py Bool :=
  self.inExecutor (pySetComfortTemperature temperature)

/-- `python/comfo/client.py:241-254` `async_configure_fan_profile`. -/
def pyAsyncConfigureFanProfile (self : PyComfo) (profile percent : Int) : Py Bool :=
  self.inExecutor (pyConfigureFanProfile profile percent)

end Comfo
